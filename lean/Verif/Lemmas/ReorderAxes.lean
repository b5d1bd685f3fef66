import Verif.Lemmas.ReorderElements
set_option linter.unusedSimpArgs false
set_option linter.unusedTactic false
/-! Options in another order: `axis`, `axes` and `legend`. -/
namespace Clip.Reorder
open Commands Settings Pictures Drawing Options
variable {φ : Type} {P : PlotEnv φ} {E : ReadEnv}

theorem fun_format : Fun (sets (IsFormat P)) := fun_some (f := formatConfigure P.stod P.readFile)

theorem axis_same {cs cs' : List Expr} (hs : ∀ g ∈ axisGroups, cs.filter (named g) = cs'.filter (named g)) {a b b' : AxisDef φ}
    (m : AxisMeans P E cs a b) (m' : AxisMeans P E cs' a b') (he : b.enable = b'.enable) : b = b' := by
  have e1 : b.scale = b'.scale := by
    refine scale_same (P := P) (E := E) ⟨by simp, ?_⟩ (hs ["limit", "limit-min"] (by decide)) (hs ["limit", "limit-max"] (by decide))
      (hs ["scale"] (by decide)) m.scale m'.scale
    intro p hp
    simp only [List.mem_cons, List.not_mem_nil, or_false] at hp
    rcases hp with rfl | rfl | rfl | rfl <;> simp
  have e2 : b.title = b'.title := by same m.title m'.title ["title"]
  have e3 : b.titleColor = b'.titleColor := by same m.titleColor m'.titleColor ["title-color"]
  have e4 : b.titleOffset = b'.titleOffset := by same m.titleOffset m'.titleOffset ["title-offset"]
  have e5 : b.titlePadding = b'.titlePadding := by same m.titlePadding m'.titlePadding ["title-padding"]
  have e6 : b.titleFonts = b'.titleFonts := by same m.titleFonts m'.titleFonts ["title-font", "font"]
  have e7 : b.titleFontSize = b'.titleFontSize := by same m.titleFontSize m'.titleFontSize ["title-font-size", "font-size"]
  have e8 : b.titleRotate = b'.titleRotate := by same m.titleRotate m'.titleRotate ["title-rotate"]
  have e9 : b.tickOffset = b'.tickOffset := by same m.tickOffset m'.tickOffset ["tick-offset"]
  have e10 : b.tickLength = b'.tickLength := by same m.tickLength m'.tickLength ["tick-length"]
  have e11 : b.tickPlacement = b'.tickPlacement := by same m.tickPlacement m'.tickPlacement ["tick-placement"]
  have e12 : b.labelPlacement = b'.labelPlacement := by same m.labelPlacement m'.labelPlacement ["label-placement"]
  have e13 : b.labelFormat = b'.labelFormat :=
    acts_same (g := ["label-format"]) (funs_last fun_format) (by simp) (hs _ (by decide)) m.labelFormat m'.labelFormat
  have e14 : b.labelAttach = b'.labelAttach :=
    acts_same (g := ["label-attach"]) (funs_last (fun_oneOf (by simp [attachWords]))) (by simp) (hs _ (by decide)) m.labelAttach m'.labelAttach
  have e15 : b.labelOffset = b'.labelOffset := by same m.labelOffset m'.labelOffset ["label-offset"]
  have e16 : b.labelPadding = b'.labelPadding := by same m.labelPadding m'.labelPadding ["label-padding"]
  have e17 : b.labelRotate = b'.labelRotate := by same m.labelRotate m'.labelRotate ["label-rotate"]
  have e18 : b.labelFonts = b'.labelFonts := by same m.labelFonts m'.labelFonts ["label-font", "font"]
  have e19 : b.labelFontSize = b'.labelFontSize := by same m.labelFontSize m'.labelFontSize ["label-font-size", "font-size"]
  have e20 : b.labelColor = b'.labelColor := by same m.labelColor m'.labelColor ["label-color"]
  have e21 : b.border = b'.border := by
    refine stroke_same (E := E) (by simp) ?_ (hs ["border-color"] (by decide)) (hs ["border-width", "border-style"] (by decide)) m.border m'.border
    intro p hp
    simp only [List.mem_cons, List.not_mem_nil, or_false] at hp
    rcases hp with rfl | rfl | rfl
    · exact .inr ⟨by simp, by simp, plain_width⟩
    · exact .inl (by simp)
    · exact .inr ⟨by simp, by simp, plain_border⟩
  have e22 : b.align = b'.align := m.align.trans m'.align.symm
  clear m m'
  cases b; cases b'
  simp only [AxisDef.mk.injEq]
  simp only at he e1 e2 e3 e4 e5 e6 e7 e8 e9 e10 e11 e12 e13 e14 e15 e16 e17 e18 e19 e20 e21 e22
  simp only [he, e1, e2, e3, e4, e5, e6, e7, e8, e9, e10, e11, e12, e13, e14, e15, e16, e17, e18, e19, e20, e21, e22, and_self]

theorem enable_kept {cmds : List Expr} {a b : AxisDef φ} (h : Executed (optTable (axisOpts P E)) cmds a b) : b.enable = a.enable :=
  kept_of_executed (fun _ hp => axis_enable hp) h

theorem align_state {s : PlotState φ} {cmds : List Expr} {a : AxisDef φ}
    (h : Executed (optTable (alignOpts (φ := φ))) cmds (axisNew s) a) : a = { axisNew s with align := a.align } := by
  have := kept_of_covers align_covers h
  cases a; cases hs : axisNew s
  rw [hs] at this
  simp only [AxisDef.mk.injEq] at this ⊢
  simp only [this, and_self]

theorem axis_order (s : PlotState φ) (hp : (s.env P).palette ≠ []) {cs cs' : List Expr} (h : SameUpToOrder axisGroups cs cs') :
    Alike (axisConfigure P s cs) (axisConfigure P s cs') := by
  have key : ∀ {cs cs'}, cs.Perm cs' → (∃ b, axisConfigure P s cs = .ok b) → ∃ b, axisConfigure P s cs' = .ok b := by
    intro cs cs' hc hb
    obtain ⟨h1, h2, h3⟩ := (C90_axis_partial P s hp cs).1.1 hb
    refine (C90_axis_partial P s hp cs').1.2 ⟨fun h => h1 ?_, fun c hm => h2 c (hc.mem_iff.2 hm), fun c hm => h3 c (hc.mem_iff.2 hm)⟩
    subst h; exact hc.eq_nil
  by_cases hb : ∃ b, axisConfigure P s cs = .ok b
  · obtain ⟨b', hb'⟩ := key h.1 hb
    obtain ⟨b, hb⟩ := hb
    obtain ⟨al, hal, hm⟩ := (C90_axis_partial P s hp cs).2 b hb
    obtain ⟨al', hal', hm'⟩ := (C90_axis_partial P s hp cs').2 b' hb'
    have : al = al' := acts_same (g := ["align"]) (funs_last (fun_oneOf (by simp [alignWords]))) (by simp) (h.2 _ (by decide)) hal hal'
    subst this
    have en : ∀ {cs b}, axisConfigure P s cs = .ok b → ∃ al, b.enable = (axisPreset { axisNew s with align := al }).enable := by
      intro cs b hb
      obtain ⟨_, _, a, h1, h2⟩ := axisConfigure_ok.1 hb
      exact ⟨a.align, by rw [enable_kept h2, align_state h1]⟩
    have en' : ∀ {cs b}, axisConfigure P s cs = .ok b → b.enable = true := by
      intro cs b hb
      obtain ⟨al, h⟩ := en hb
      rw [h]
      cases al <;> rfl
    have := axis_same h.2 hm hm' ((en' hb).trans (en' hb').symm)
    subst this
    exact .inl ⟨b, hb, hb'⟩
  · have hb' : ¬ ∃ b, axisConfigure P s cs' = .ok b := fun hb' => hb (key h.1.symm hb')
    have bad : ∀ {x : Except Fail (AxisDef φ)}, (¬ ∃ b, x = .ok b) → ∃ f, x = .error f := by
      intro x hx
      cases x with
      | ok c => exact absurd ⟨c, rfl⟩ hx
      | error f => exact ⟨f, rfl⟩
    exact .inr ⟨bad hb, bad hb'⟩

/-! ## `axes` -/

theorem sideNames_iff : ∀ p ∈ sided, ∀ e ∈ p.2, splitName (String.toList p.1 ++ String.toList e.1) = some (p.1, e.2) := by
  decide +kernel

theorem split_entry {n : Str} {base : String} {S : List Side} (h : splitName n = some (base, S)) :
    ∃ p ∈ sided, ∃ e ∈ p.2, n = String.toList p.1 ++ String.toList e.1 ∧ p.1 = base ∧ e.2 = S := by
  unfold splitName at h
  obtain ⟨p, hp, h⟩ := List.exists_of_findSome?_eq_some h
  rw [Option.map_eq_some_iff] at h
  obtain ⟨e, he, h⟩ := h
  cases h
  have h2 := List.find?_some he
  exact ⟨p, hp, e, List.mem_of_find?_eq_some he, of_decide_eq_true h2, rfl, rfl⟩

theorem named_side {σ : Side} {g : List String} {c : Expr} : named (sideNames σ g) c = true ↔
    ∃ n base S, nameOf c = some n ∧ splitName n = some (base, S) ∧ σ ∈ S ∧ base ∈ g := by
  rw [named_iff]
  unfold sideNames
  constructor
  · rintro ⟨n, hn, hc⟩
    obtain ⟨p, hp, hn⟩ := List.mem_flatMap.1 hn
    split at hn
    · rename_i hg
      obtain ⟨e, he, rfl⟩ := List.mem_map.1 hn
      obtain ⟨he, hσ⟩ := List.mem_filter.1 he
      refine ⟨_, _, _, hc, ?_, of_decide_eq_true hσ, hg⟩
      rw [String.toList_append]
      exact sideNames_iff p hp e he
    · simp at hn
  · rintro ⟨n, base, S, hc, hs, hσ, hg⟩
    obtain ⟨p, hp, e, he, rfl, rfl, rfl⟩ := split_entry hs
    refine ⟨p.1 ++ e.1, List.mem_flatMap.2 ⟨p, hp, ?_⟩, by rw [String.toList_append]; exact hc⟩
    rw [if_pos hg]
    exact List.mem_map.2 ⟨e, List.mem_filter.2 ⟨he, decide_eq_true hσ⟩, rfl⟩

theorem options_filter (σ : Side) (g : List String) (cs : List Expr) :
    (optionsFor σ cs).filter (named g) = optionsFor σ (cs.filter (named (sideNames σ g))) := by
  induction cs with
  | nil => rfl
  | cons c cs ih =>
    rw [optionsFor_cons, List.filter_append, ih, List.filter_cons]
    cases hb : (nameOf c).bind splitName with
    | none =>
      rw [if_neg]
      · rfl
      · rw [named_side]
        rintro ⟨n, base, S, h1, h2, _⟩
        rw [h1] at hb
        rw [show (some n).bind splitName = splitName n from rfl, h2] at hb
        cases hb
    | some r =>
      obtain ⟨base, S⟩ := r
      obtain ⟨n, hn, hs⟩ := Option.bind_eq_some_iff.1 hb
      by_cases hσ : σ ∈ S
      · by_cases hg : base ∈ g
        · rw [if_pos (named_side.2 ⟨n, base, S, hn, hs, hσ, hg⟩), optionsFor_cons, hb]
          simp only [hσ, if_true]
          rw [List.filter_cons, if_pos]
          · rfl
          · exact named_iff.2 ⟨base, hg, rfl⟩
        · rw [if_neg]
          · simp only [hσ, if_true]
            rw [List.filter_cons, if_neg]
            · rfl
            · rw [named_iff]
              rintro ⟨m, hm, he⟩
              have : base = m := String.toList_inj.1 (Option.some.inj he)
              exact hg (this ▸ hm)
          · rw [named_side]
            rintro ⟨n', base', S', h1, h2, _, h4⟩
            rw [hn] at h1; cases h1
            rw [hs] at h2; cases h2
            exact hg h4
      · rw [if_neg]
        · simp only [hσ, if_false]; rfl
        · rw [named_side]
          rintro ⟨n', base', S', h1, h2, h3, _⟩
          rw [hn] at h1; cases h1
          rw [hs] at h2; cases h2
          exact hσ h3

theorem fun_position (σ : Side) : Fun (sets (IsPosition σ)) := by
  rintro args a b b' ⟨_, h⟩ ⟨_, h'⟩
  exact Bool.eq_iff_iff.2 (h.trans h'.symm)

theorem axes_unique {cs cs' : List Expr} (hs : ∀ g ∈ axesGroups, cs.filter (named g) = cs'.filter (named g)) {a b b' : AxesConf φ}
    (m : AxesMeans P E cs a b) (m' : AxesMeans P E cs' a b') : b = b' := by
  have side : ∀ σ : Side, σ ∈ [Side.top, .right, .bottom, .left] := by intro σ; cases σ <;> simp
  have h1 : ∀ σ, sideOf b σ = sideOf b' σ := by
    intro σ
    refine axis_same (fun g hg => ?_) (m.axis σ) (m'.axis σ) ?_
    · rw [options_filter, options_filter, hs]
      exact List.mem_append_left _ (List.mem_flatMap.2 ⟨σ, side σ, List.mem_cons_of_mem _ (List.mem_map.2 ⟨g, hg, rfl⟩)⟩)
    · exact acts_same (g := ["position"]) (funs_last (fun_position σ)) (by simp)
        (hs _ (List.mem_append_right _ (.head _))) (m.enable σ) (m'.enable σ)
  have h2 : ∀ σ, marginOf b σ = marginOf b' σ := by
    intro σ
    refine acts_same (g := ["margin", "margin-" ++ σ.word]) (funs_last fun_size) (by simp) (hs _ ?_) (m.margin σ) (m'.margin σ)
    exact List.mem_append_left _ (List.mem_flatMap.2 ⟨σ, side σ, .head _⟩)
  have a1 := h1 .top; have a2 := h1 .right; have a3 := h1 .bottom; have a4 := h1 .left
  have b1 := h2 .top; have b2 := h2 .right; have b3 := h2 .bottom; have b4 := h2 .left
  clear m m' h1 h2
  obtain ⟨t, r, bo, l, m1, m2, m3, m4⟩ := b
  obtain ⟨t', r', bo', l', m1', m2', m3', m4'⟩ := b'
  simp only [sideOf, marginOf] at a1 a2 a3 a4 b1 b2 b3 b4
  subst a1 a2 a3 a4 b1 b2 b3 b4
  rfl

theorem axes_order (s : PlotState φ) (hp : (s.env P).palette ≠ []) {cs cs' : List Expr} (h : SameUpToOrder axesGroups cs cs') :
    Alike (axesConfigure P s cs) (axesConfigure P s cs') := by
  have bad : ∀ {x : Except Fail (AxesConf φ)}, (∀ b, x ≠ .ok b) → ∃ f, x = .error f := by
    intro x hx
    cases x with
    | ok c => exact absurd rfl (hx c)
    | error f => exact ⟨f, rfl⟩
  by_cases ha : ∀ c ∈ cs, axesTakes P (s.env P) c
  · obtain ⟨o, ho, hc⟩ := (C90_axes P s hp cs).2 ha
    obtain ⟨o', ho', hc'⟩ := (C90_axes P s hp cs').2 fun c hm => ha c (h.1.mem_iff.2 hm)
    have := axes_unique h.2 ho ho'
    subst this
    exact .inl ⟨o, (hc o).2 rfl, (hc' o).2 rfl⟩
  · exact .inr ⟨bad ((C90_axes P s hp cs).1 ha), bad ((C90_axes P s hp cs').1 fun h' => ha fun c hm => h' c (h.1.mem_iff.1 hm))⟩

/-! ## `legend` -/

theorem lastWord_unique {words args : List _} {w w' : String} (h : LastWord words args w) (h' : LastWord words args w') : w = w' := by
  obtain ⟨hw, pre, e, post, rfl, he, hp⟩ := h
  obtain ⟨hw', pre', e', post', heq, he', hp'⟩ := h'
  rcases List.append_eq_append_iff.1 heq with ⟨l, h1, h2⟩ | ⟨l, h1, h2⟩
  · cases l with
    | nil => cases h2; exact word_inj he he'
    | cons x xs =>
      rw [List.cons_append] at h2
      injection h2 with h2 h3
      exact absurd he' (hp e' (h3 ▸ List.mem_append_right _ (.head _)) w' hw')
  · cases l with
    | nil => cases h2; exact word_inj he he'
    | cons x xs =>
      rw [List.cons_append] at h2
      injection h2 with h2 h3
      exact absurd he (hp' e (h3 ▸ List.mem_append_right _ (.head _)) w hw)

theorem lastWord_mem {words : List String} {args : List Expr} {w : String} (h : LastWord words args w) : ∃ e ∈ args, IsWord e w := by
  obtain ⟨_, pre, e, post, rfl, he, _⟩ := h
  exact ⟨e, by simp, he⟩

theorem fun_placeX : Fun PlaceX := by
  rintro args a b b' ⟨_, h⟩ ⟨_, h'⟩
  rcases h with ⟨h, rfl⟩ | ⟨h, rfl⟩ | ⟨h, hc⟩ <;> rcases h' with ⟨h', rfl⟩ | ⟨h', rfl⟩ | ⟨h', hc'⟩
  · rfl
  · exact absurd (lastWord_unique h h') (by decide)
  · obtain ⟨e, he, hw⟩ := lastWord_mem h; exact absurd hw (h' e he).1
  · exact absurd (lastWord_unique h h') (by decide)
  · rfl
  · obtain ⟨e, he, hw⟩ := lastWord_mem h; exact absurd hw (h' e he).2
  · obtain ⟨e, he, hw⟩ := lastWord_mem h'; exact absurd hw (h e he).1
  · obtain ⟨e, he, hw⟩ := lastWord_mem h'; exact absurd hw (h e he).2
  · rcases hc with ⟨⟨e, he, hw⟩, rfl⟩ | ⟨hn, rfl⟩ <;> rcases hc' with ⟨⟨e', he', hw'⟩, rfl⟩ | ⟨hn', rfl⟩
    · rfl
    · exact absurd hw (hn' e he)
    · exact absurd hw' (hn e' he')
    · rfl

theorem fun_placeY : Fun PlaceY := by
  rintro args a b b' ⟨_, h⟩ ⟨_, h'⟩
  rcases h with ⟨h, rfl⟩ | ⟨h, rfl⟩ | ⟨h, hc⟩ <;> rcases h' with ⟨h', rfl⟩ | ⟨h', rfl⟩ | ⟨h', hc'⟩
  · rfl
  · exact absurd (lastWord_unique h h') (by decide)
  · obtain ⟨e, he, hw⟩ := lastWord_mem h; exact absurd hw (h' e he).1
  · exact absurd (lastWord_unique h h') (by decide)
  · rfl
  · obtain ⟨e, he, hw⟩ := lastWord_mem h; exact absurd hw (h' e he).2
  · obtain ⟨e, he, hw⟩ := lastWord_mem h'; exact absurd hw (h e he).1
  · obtain ⟨e, he, hw⟩ := lastWord_mem h'; exact absurd hw (h e he).2
  · rcases hc with ⟨⟨e, he, hw⟩, rfl⟩ | ⟨hn, rfl⟩ <;> rcases hc' with ⟨⟨e', he', hw'⟩, rfl⟩ | ⟨hn', rfl⟩
    · rfl
    · exact absurd hw (hn' e he)
    · exact absurd hw' (hn e' he')
    · rfl

theorem fun_switch : Fun (sets IsSwitch) := by
  rintro args a b b' ⟨k, r, rfl, h⟩ ⟨k', r', he, h'⟩
  cases he
  have := word_inj h h'
  revert this
  cases b <;> cases b' <;> decide

theorem fun_background : Fun (sets fun args (v : Option Color) => ∃ k, IsColor E args k ∧ v = some k) := by
  rintro args a b b' ⟨k, h, rfl⟩ ⟨k', h', rfl⟩
  rw [fun_color args .black _ _ h h']

theorem item_unique {args : List Expr} {a b b' : LegendItem φ} (m : ItemMeans P E args a b) (m' : ItemMeans P E args a b') : b = b' := by
  have e1 : b.label = b'.label := acts_unique (by fns) m.label m'.label
  have e2 : b.labelAlign = b'.labelAlign := acts_unique (funs_last (fun_oneOf (by simp [sideWords]))) m.labelAlign m'.labelAlign
  have e3 : b.labelMargin = b'.labelMargin := acts_unique (by fns) m.labelMargin m'.labelMargin
  have e4 : b.labelColor = b'.labelColor := acts_unique (by fns) m.labelColor m'.labelColor
  have e5 : b.labelFonts = b'.labelFonts := acts_unique (by fns) m.labelFonts m'.labelFonts
  have e6 : b.labelFontSize = b'.labelFontSize := acts_unique (by fns) m.labelFontSize m'.labelFontSize
  have e7 : b.marker = b'.marker := acts_unique (by fns) m.marker m'.marker
  have e8 : b.markerAlign = b'.markerAlign := acts_unique (funs_last (fun_oneOf (by simp [sideWords]))) m.markerAlign m'.markerAlign
  have e9 : b.markerMargin = b'.markerMargin := acts_unique (by fns) m.markerMargin m'.markerMargin
  have e10 : b.markerColor = b'.markerColor := acts_unique (by fns) m.markerColor m'.markerColor
  have e11 : b.markerSize = b'.markerSize := acts_unique (by fns) m.markerSize m'.markerSize
  clear m m'
  cases b; cases b'
  simp only [LegendItem.mk.injEq]
  simp only at e1 e2 e3 e4 e5 e6 e7 e8 e9 e10 e11
  simp only [e1, e2, e3, e4, e5, e6, e7, e8, e9, e10, e11, and_self]

theorem fun_item {item : LegendItem φ} : Fun (fun args x y => ∃ i, IsItem P E item args i ∧ y = x ++ [i]) := by
  rintro args a b b' ⟨i, h, rfl⟩ ⟨i', h', rfl⟩
  rw [item_unique h.2 h'.2]

theorem border_same {cs cs' : List Expr} (side : String) {a b b' : StrokeState}
    (hn : side ∈ ["top", "right", "bottom", "left"])
    (hs : ∀ g ∈ [["border-color", "border-" ++ side ++ "-color"], ["border", "border-width", "border-" ++ side ++ "-width"]],
      cs.filter (named g) = cs'.filter (named g)) (h : Acts (borderOf E side) cs a b) (h' : Acts (borderOf E side) cs' a b') : b = b' := by
  have hd : ([("border"), "border-color", "border-" ++ side ++ "-color", "border-width", "border-" ++ side ++ "-width"] : List String).Nodup := by
    simp only [List.mem_cons, List.not_mem_nil, or_false] at hn
    rcases hn with rfl | rfl | rfl | rfl <;> decide
  have hd' := hd
  simp only [List.nodup_cons, List.mem_cons, List.not_mem_nil, or_false, not_or] at hd
  refine stroke_same (E := E) (t := borderOf E side) hd' ?_ (hs _ (.head _)) (hs _ (.tail _ (.head _))) h h'
  intro p hp
  simp only [borderOf, List.mem_cons, List.not_mem_nil, or_false] at hp
  rcases hp with rfl | rfl | rfl | rfl | rfl
  · exact .inr ⟨by simp only [List.mem_cons, List.not_mem_nil, or_false, not_or]; exact ⟨hd.1.1, hd.1.2.1⟩, by simp, plain_border⟩
  · refine .inl ⟨by simp, ?_, rfl⟩
    simp only [List.mem_cons, List.not_mem_nil, or_false, not_or]
    exact ⟨fun h => hd.1.1 h.symm, hd.2.1.2.1, hd.2.1.2.2⟩
  · refine .inl ⟨by simp, ?_, rfl⟩
    simp only [List.mem_cons, List.not_mem_nil, or_false, not_or]
    exact ⟨fun h => hd.1.2.1 h.symm, hd.2.2.1.1, hd.2.2.1.2⟩
  · refine .inr ⟨?_, by simp, plain_width⟩
    simp only [List.mem_cons, List.not_mem_nil, or_false, not_or]
    exact ⟨fun h => hd.2.1.2.1 h.symm, fun h => hd.2.2.1.1 h.symm⟩
  · refine .inr ⟨?_, by simp, plain_width⟩
    simp only [List.mem_cons, List.not_mem_nil, or_false, not_or]
    exact ⟨fun h => hd.2.1.2.2 h.symm, fun h => hd.2.2.1.2 h.symm⟩

theorem legend_unique {cs cs' : List Expr} {item : LegendItem φ} (hs : ∀ g ∈ legendGroups, cs.filter (named g) = cs'.filter (named g))
    {a b b' : LegendConf φ} (m : LegendMeans P E item cs a b) (m' : LegendMeans P E item cs' a b') : b = b' := by
  have e1 : b.horiz = b'.horiz :=
    acts_same (g := ["position"]) (funs_cons fun_placeX (by simp) funs_nil) (by simp) (hs _ (by decide)) m.horiz m'.horiz
  have e2 : b.vert = b'.vert :=
    acts_same (g := ["position"]) (funs_cons fun_placeY (by simp) funs_nil) (by simp) (hs _ (by decide)) m.vert m'.vert
  have e3 : b.rowPadding = b'.rowPadding := by same m.rowPadding m'.rowPadding ["item-row-padding"]
  have e4 : b.columnPadding = b'.columnPadding := by same m.columnPadding m'.columnPadding ["item-column-padding"]
  have e5 : b.flow = b'.flow :=
    acts_same (g := ["item-flow"]) (funs_last fun_switch) (by simp) (hs _ (by decide)) m.flow m'.flow
  have e6 : b.items = b'.items :=
    acts_same (g := ["item"]) (funs_cons fun_item (by simp) funs_nil) (by simp) (hs _ (by decide)) m.items m'.items
  have p1 : b.padding.1 = b'.padding.1 := by same m.paddingTop m'.paddingTop ["padding", "padding-top"]
  have p2 : b.padding.2.1 = b'.padding.2.1 := by same m.paddingRight m'.paddingRight ["padding", "padding-right"]
  have p3 : b.padding.2.2.1 = b'.padding.2.2.1 := by same m.paddingBottom m'.paddingBottom ["padding", "padding-bottom"]
  have p4 : b.padding.2.2.2 = b'.padding.2.2.2 := by same m.paddingLeft m'.paddingLeft ["padding", "padding-left"]
  have q1 : b.margins.1 = b'.margins.1 := by same m.marginTop m'.marginTop ["margin", "margin-top"]
  have q2 : b.margins.2.1 = b'.margins.2.1 := by same m.marginRight m'.marginRight ["margin", "margin-right"]
  have q3 : b.margins.2.2.1 = b'.margins.2.2.1 := by same m.marginBottom m'.marginBottom ["margin", "margin-bottom"]
  have q4 : b.margins.2.2.2 = b'.margins.2.2.2 := by same m.marginLeft m'.marginLeft ["margin", "margin-left"]
  have r1 : b.borders.1 = b'.borders.1 := border_same "top" (by decide) (fun g hg => hs g (by revert g; decide)) m.borderTop m'.borderTop
  have r2 : b.borders.2.1 = b'.borders.2.1 := border_same "right" (by decide) (fun g hg => hs g (by revert g; decide)) m.borderRight m'.borderRight
  have r3 : b.borders.2.2.1 = b'.borders.2.2.1 := border_same "bottom" (by decide) (fun g hg => hs g (by revert g; decide)) m.borderBottom m'.borderBottom
  have r4 : b.borders.2.2.2 = b'.borders.2.2.2 := border_same "left" (by decide) (fun g hg => hs g (by revert g; decide)) m.borderLeft m'.borderLeft
  have e7 : b.background = b'.background :=
    acts_same (g := ["background"]) (funs_last fun_background) (by simp) (hs _ (by decide)) m.background m'.background
  clear m m'
  obtain ⟨h, v, rp, cp, fl, ⟨m1, m2, m3, m4⟩, ⟨n1, n2, n3, n4⟩, ⟨o1, o2, o3, o4⟩, bg, it⟩ := b
  obtain ⟨h', v', rp', cp', fl', ⟨m1', m2', m3', m4'⟩, ⟨n1', n2', n3', n4'⟩, ⟨o1', o2', o3', o4'⟩, bg', it'⟩ := b'
  simp only at e1 e2 e3 e4 e5 e6 e7 p1 p2 p3 p4 q1 q2 q3 q4 r1 r2 r3 r4
  subst e1 e2 e3 e4 e5 e6 e7 p1 p2 p3 p4 q1 q2 q3 q4 r1 r2 r3 r4
  rfl

theorem legend_order (s : PlotState φ) (hp : (s.env P).palette ≠ []) {cs cs' : List Expr} (h : SameUpToOrder legendGroups cs cs') :
    Alike (legendConfigure P s cs) (legendConfigure P s cs') := by
  have bad : ∀ {x : Except Fail (LegendConf φ)}, (∀ b, x ≠ .ok b) → ∃ f, x = .error f := by
    intro x hx
    cases x with
    | ok c => exact absurd rfl (hx c)
    | error f => exact ⟨f, rfl⟩
  by_cases ha : Acceptable (legendTakes P (s.env P)) cs
  · obtain ⟨o, ho, hc⟩ := (C90_legend P s hp cs).2 ha
    obtain ⟨o', ho', hc'⟩ := (C90_legend P s hp cs').2 fun c hm => ha c (h.1.mem_iff.2 hm)
    have := legend_unique h.2 ho ho'
    subst this
    exact .inl ⟨o, (hc o).2 rfl, (hc' o).2 rfl⟩
  · exact .inr ⟨bad ((C90_legend P s hp cs).1 ha), bad ((C90_legend P s hp cs').1 fun h' => ha fun c hm => h' c (h.1.mem_iff.1 hm))⟩

end Clip.Reorder
