import Verif.Lemmas.Svg
/-!
# C33, C34: the exported SVG document
-/
set_option linter.unusedSimpArgs false
namespace Clip
open Xml SvgDoc

noncomputable section

/-! ## Elements -/

open Classical in
/-- Attributes of a fill. -/
def fillKvs (c : Color) (o : Str) : List (Str × Str) :=
  (if colorIsBlack c then [] else [("fill".toList, colorHexStr c false)]) ++
  (if c.a = 1 then [] else [("fill-opacity".toList, o)])

open Classical in
/-- Attributes of a stroke. -/
def strokeKvs (c : Color) (o w : Str) : List (Str × Str) :=
  ("stroke".toList, colorHexStr c false) ::
  ((if c.a = 1 then [] else [("stroke-opacity".toList, o)]) ++ [("stroke-width".toList, w)])

def aaKvs (crisp : Bool) : List (Str × Str) :=
  if crisp then [("shape-rendering".toList, "crispEdges".toList)] else []

theorem svgAA_eq (crisp : Bool) : svgAA crisp = attrText (aaKvs crisp) := by
  cases crisp <;> simp [svgAA, aaKvs, attrText]

theorem svgFill_eq {c : Color} {t : Str} (h : svgFill c = some t) :
    ∃ o, Num o c.a ∧ t = attrText (fillKvs c o) := by
  classical
  unfold svgFill svgWhen at h
  by_cases ha : c.a = 1
  · refine ⟨['1'], by rw [ha]; exact one_num, ?_⟩
    by_cases hb : colorIsBlack c
    · simp [ha, hb] at h; simp [fillKvs, ha, hb, attrText, ← h]
    · simp [ha, hb] at h; simp [fillKvs, ha, hb, attrText, ← h]
  · cases ho : svgNumber c.a with
    | none =>
      exfalso
      by_cases hb : colorIsBlack c <;> simp [ha, hb, svgAttrNum, ho] at h
    | some o =>
      refine ⟨o, svgNumber_num ho, ?_⟩
      by_cases hb : colorIsBlack c
      · simp [ha, hb, svgAttrNum, ho] at h; simp [fillKvs, ha, hb, attrText, ← h]
      · simp [ha, hb, svgAttrNum, ho] at h; simp [fillKvs, ha, hb, attrText, ← h]

theorem svgStroke_eq {c : Color} {width : ℝ} {t : Str} (h : svgStroke c width = some t) :
    ∃ o w, Num o c.a ∧ Num w width ∧ t = attrText (strokeKvs c o w) := by
  classical
  unfold svgStroke svgWhen at h
  cases hw : svgNumber width with
  | none =>
    exfalso
    by_cases ha : c.a = 1
    · simp [ha, svgAttrNum, hw] at h
    · cases ho : svgNumber c.a <;> simp [ha, svgAttrNum, hw, ho] at h
  | some w =>
    by_cases ha : c.a = 1
    · refine ⟨['1'], w, by rw [ha]; exact one_num, svgNumber_num hw, ?_⟩
      simp [ha, svgAttrNum, hw] at h
      simp [strokeKvs, ha, attrText, ← h]
    · cases ho : svgNumber c.a with
      | none => simp [ha, svgAttrNum, hw, ho] at h
      | some o =>
        refine ⟨o, w, svgNumber_num ho, svgNumber_num hw, ?_⟩
        simp [ha, svgAttrNum, hw, ho] at h
        simp [strokeKvs, ha, attrText, ← h]

/-- The keys that occur. -/
def svgKeys : List Str :=
  ["d".toList, "fill".toList, "fill-opacity".toList, "stroke".toList, "stroke-opacity".toList, "stroke-width".toList,
    "stroke-dasharray".toList, "stroke-dashoffset".toList, "shape-rendering".toList]

theorem svgKeys_name : ∀ k ∈ svgKeys, Name k := by
  have h : ∀ k ∈ svgKeys, k ≠ [] ∧ ∀ c ∈ k, nameChar c = true := by decide +kernel
  exact h

theorem svgKeys_nodup : svgKeys.Nodup := by decide +kernel

theorem run_path_open : run (.data ['\n']) "  <path".toList = some (.name ['h', 't', 'a', 'p'], [.text "\n  ".toList]) := by
  decide +kernel

theorem run_path_close (n : Str) (attrs : List (Str × Str)) :
    run (.post n attrs) "/>\n".toList = some (.data ['\n'], [.empty n attrs]) := by
  have : "/>\n".toList = ['/', '>', '\n'] := by decide
  rw [this]
  simp [run, step, show space '/' = false by decide]

theorem path_name : ['h', 't', 'a', 'p'].reverse = "path".toList := by decide

theorem svgPathElem_eq (d : Str) (kvs : List (Str × Str)) :
    svgPathElem d (attrText kvs) = "  <path".toList ++ (attrText (([('d')], d) :: kvs)) ++ "/>\n".toList := by
  unfold svgPathElem attrText
  generalize "  <path".toList = a
  generalize "/>\n".toList = b
  rw [List.flatMap_cons, List.append_assoc a]

/-- A path element, read. -/
theorem run_elem (d : Str) (kvs : List (Str × Str)) (hd : Plain d) (hv : ∀ kv ∈ kvs, Plain kv.2)
    (hk : (("d".toList :: kvs.map Prod.fst)).Sublist svgKeys) :
    run (.data ['\n']) (svgPathElem d (attrText kvs)) =
      some (.data ['\n'], [.text "\n  ".toList, .empty "path".toList ((['d'], d) :: kvs)]) := by
  have hk' : ((((['d'], d) :: kvs) : List (Str × Str)).map Prod.fst).Sublist svgKeys := hk
  have h2 := run_attrs_name ['h', 't', 'a', 'p'] ((['d'], d) :: kvs) (by simp)
    (fun kv hkv => svgKeys_name _ (hk'.subset (List.mem_map_of_mem hkv)))
    (by
      intro kv hkv
      rcases List.mem_cons.1 hkv with rfl | hkv
      · exact hd
      · exact hv kv hkv)
    (hk'.nodup svgKeys_nodup)
  rw [path_name] at h2
  rw [svgPathElem_eq]
  exact run_trans (run_trans run_path_open h2) (run_path_close _ _)

theorem value_path : ∀ a b : List (Str × Str), ∀ k : Str, value (a ++ b) k = (value a k).or (value b k) := by
  intro a b k; simp [value, List.lookup_append]

theorem value_cons (a v k : Str) (l : List (Str × Str)) : value ((a, v) :: l) k = if k = a then some v else value l k := by
  unfold value
  rw [List.lookup_cons]
  by_cases h : k = a
  · simp [h]
  · have : (k == a) = false := by simpa using h
    rw [this]; simp [h]

theorem value_nil (k : Str) : value [] k = none := rfl

theorem ops_fill (d o : Str) (c : Color) (hc : Proper c) (ho : Num o c.a) (crisp : Bool) :
    ∃ color opacity, ColorText color c ∧ Num opacity c.a ∧
      ops (.empty "path".toList ((['d'], d) :: (fillKvs c o ++ aaKvs crisp))) = [.fill d color opacity crisp] := by
  classical
  obtain ⟨h1, h2, h3⟩ := colorHex_text hc
  by_cases hb : colorIsBlack c <;> by_cases ha : c.a = 1 <;> cases crisp <;>
  first
  | refine ⟨"#000000".toList, ['1'], black_text hb, by rw [ha]; exact one_num, ?_⟩
    simp [ops, fillKvs, aaKvs, hb, ha, value_cons, value_nil]
    done
  | refine ⟨"#000000".toList, o, black_text hb, ho, ?_⟩
    simp [ops, fillKvs, aaKvs, hb, ha, value_cons, value_nil]
    done
  | refine ⟨colorHexStr c false, ['1'], h1, by rw [ha]; exact one_num, ?_⟩
    simp [ops, fillKvs, aaKvs, hb, ha, value_cons, value_nil]
    simpa using h3
  | refine ⟨colorHexStr c false, o, h1, ho, ?_⟩
    simp [ops, fillKvs, aaKvs, hb, ha, value_cons, value_nil]
    simpa using h3

theorem ops_stroke (d o w : Str) (c : Color) (hc : Proper c) (ho : Num o c.a) (crisp : Bool) :
    ∃ opacity, Num opacity c.a ∧
      ops (.empty "path".toList ((['d'], d) ::
        (("fill".toList, "none".toList) :: (strokeKvs c o w ++ aaKvs crisp)))) =
        [.stroke d (colorHexStr c false) opacity w none crisp] := by
  classical
  by_cases ha : c.a = 1 <;> cases crisp <;>
  first
  | refine ⟨['1'], by rw [ha]; exact one_num, ?_⟩
    simp [ops, strokeKvs, aaKvs, ha, value_cons, value_nil]
    done
  | refine ⟨o, ho, ?_⟩
    simp [ops, strokeKvs, aaKvs, ha, value_cons, value_nil]
    done

theorem ops_dash (d o w pat off : Str) (c : Color) (hc : Proper c) (ho : Num o c.a) (crisp : Bool) :
    ∃ opacity, Num opacity c.a ∧
      ops (.empty "path".toList ((['d'], d) ::
        (("fill".toList, "none".toList) :: (strokeKvs c o w ++
          (("stroke-dasharray".toList, pat) :: ("stroke-dashoffset".toList, off) :: aaKvs crisp))))) =
        [.stroke d (colorHexStr c false) opacity w (some (pat, off)) crisp] := by
  classical
  by_cases ha : c.a = 1 <;> cases crisp <;>
  first
  | refine ⟨['1'], by rw [ha]; exact one_num, ?_⟩
    simp [ops, strokeKvs, aaKvs, ha, value_cons, value_nil]
    done
  | refine ⟨o, ho, ?_⟩
    simp [ops, strokeKvs, aaKvs, ha, value_cons, value_nil]
    done

theorem ops_compound (d o o' w : Str) (c k : Color) (hc : Proper c) (ho : Num o c.a)
    (ho' : Num o' k.a) (crisp : Bool) :
    ∃ color opacity opacity', ColorText color c ∧ Num opacity c.a ∧ Num opacity' k.a ∧
      ops (.empty "path".toList ((['d'], d) :: (fillKvs c o ++ (strokeKvs k o' w ++ aaKvs crisp)))) =
        [.fill d color opacity crisp, .stroke d (colorHexStr k false) opacity' w none crisp] := by
  classical
  obtain ⟨h1, h2, h3⟩ := colorHex_text hc
  have h3' : ¬ colorHexStr c false = ['n', 'o', 'n', 'e'] := by simpa using h3
  have hop : ∃ opacity, Num opacity c.a ∧ opacity = if c.a = 1 then ['1'] else o := by
    by_cases ha : c.a = 1
    · exact ⟨['1'], by rw [ha]; exact one_num, by simp [ha]⟩
    · exact ⟨o, ho, by simp [ha]⟩
  have hop' : ∃ opacity, Num opacity k.a ∧ opacity = if k.a = 1 then ['1'] else o' := by
    by_cases ha : k.a = 1
    · exact ⟨['1'], by rw [ha]; exact one_num, by simp [ha]⟩
    · exact ⟨o', ho', by simp [ha]⟩
  have hco : ∃ color, ColorText color c ∧ color = if colorIsBlack c then "#000000".toList else colorHexStr c false := by
    by_cases hb : colorIsBlack c
    · exact ⟨_, black_text hb, by simp [hb]⟩
    · exact ⟨_, h1, by simp [hb]⟩
  obtain ⟨p, hp, ep⟩ := hop
  obtain ⟨p', hp', ep'⟩ := hop'
  obtain ⟨q, hq, eq⟩ := hco
  refine ⟨q, p, p', hq, hp, hp', ?_⟩
  rw [ep, ep', eq]
  by_cases hb : colorIsBlack c <;> by_cases ha : c.a = 1 <;> by_cases ha' : k.a = 1 <;> cases crisp <;>
    simp [ops, fillKvs, strokeKvs, aaKvs, hb, ha, ha', value_cons, value_nil, h3']

theorem keys_fill (c : Color) (o : Str) (crisp : Bool) :
    ("d".toList :: (fillKvs c o ++ aaKvs crisp).map Prod.fst).Sublist svgKeys := by
  classical
  by_cases hb : colorIsBlack c <;> by_cases ha : c.a = 1 <;> cases crisp <;>
    simp only [fillKvs, aaKvs, hb, ha, if_true, if_false, Bool.false_eq_true, List.nil_append, List.append_nil,
      List.cons_append, List.map_cons, List.map_nil] <;> decide +kernel

theorem keys_stroke (c : Color) (o w : Str) (crisp : Bool) :
    ("d".toList :: ((("fill".toList, "none".toList) :: (strokeKvs c o w ++ aaKvs crisp)).map Prod.fst)).Sublist
      svgKeys := by
  classical
  by_cases ha : c.a = 1 <;> cases crisp <;>
    simp only [strokeKvs, aaKvs, ha, if_true, if_false, Bool.false_eq_true, List.nil_append, List.append_nil,
      List.cons_append, List.map_cons, List.map_nil] <;> decide +kernel

theorem keys_dash (c : Color) (o w pat off : Str) (crisp : Bool) :
    ("d".toList :: ((("fill".toList, "none".toList) :: (strokeKvs c o w ++
      (("stroke-dasharray".toList, pat) :: ("stroke-dashoffset".toList, off) :: aaKvs crisp))).map Prod.fst)).Sublist
      svgKeys := by
  classical
  by_cases ha : c.a = 1 <;> cases crisp <;>
    simp only [strokeKvs, aaKvs, ha, if_true, if_false, Bool.false_eq_true, List.nil_append, List.append_nil,
      List.cons_append, List.map_cons, List.map_nil] <;> decide +kernel

theorem keys_compound (c k : Color) (o o' w : Str) (crisp : Bool) :
    ("d".toList :: (fillKvs c o ++ (strokeKvs k o' w ++ aaKvs crisp)).map Prod.fst).Sublist svgKeys := by
  classical
  by_cases hb : colorIsBlack c <;> by_cases ha : c.a = 1 <;> by_cases ha' : k.a = 1 <;> cases crisp <;>
    simp only [fillKvs, strokeKvs, aaKvs, hb, ha, ha', if_true, if_false, Bool.false_eq_true, List.nil_append,
      List.append_nil, List.cons_append, List.map_cons, List.map_nil] <;> decide +kernel

theorem none_plain : Plain "none".toList := by
  have h : ∀ c ∈ "none".toList, c ≠ '"' ∧ c ≠ '<' ∧ c ≠ '&' := by decide
  exact h

theorem aa_plain (crisp : Bool) : ∀ kv ∈ aaKvs crisp, Plain kv.2 := by
  have h : ∀ c ∈ "crispEdges".toList, c ≠ '"' ∧ c ≠ '<' ∧ c ≠ '&' := by decide
  cases crisp
  · simp [aaKvs]
  · intro kv hkv
    simp only [aaKvs, if_true, List.mem_singleton] at hkv
    subst hkv
    exact h

theorem fill_plain {c : Color} {o : Str} (hc : Proper c) (ho : Num o c.a) : ∀ kv ∈ fillKvs c o, Plain kv.2 := by
  classical
  intro kv hkv
  obtain ⟨h1, h2, h3⟩ := colorHex_text hc
  rcases List.mem_append.1 hkv with h | h
  · split at h
    · simp at h
    · rw [List.mem_singleton] at h; subst h; exact h2
  · split at h
    · simp at h
    · rw [List.mem_singleton] at h; subst h; exact num_plain ho

theorem stroke_plain {c : Color} {o w : Str} {x : ℝ} (hc : Proper c) (ho : Num o c.a) (hw : Num w x) :
    ∀ kv ∈ strokeKvs c o w, Plain kv.2 := by
  classical
  intro kv hkv
  obtain ⟨h1, h2, h3⟩ := colorHex_text hc
  rcases List.mem_cons.1 hkv with rfl | hkv
  · exact h2
  · rcases List.mem_append.1 hkv with h | h
    · split at h
      · simp at h
      · rw [List.mem_singleton] at h; subst h; exact num_plain ho
    · rw [List.mem_singleton] at h; subst h; exact num_plain hw

/-- A text that is read as one path element that paints `ps`. -/
def Element (height : ℝ) (t : Str) (ps : List Paint) : Prop :=
  ∃ attrs, run (.data ['\n']) t = some (.data ['\n'], [.text "\n  ".toList, .empty "path".toList attrs]) ∧
    List.Forall₂ (Shows height) (ops (.empty "path".toList attrs)) ps

theorem element_fill {height : ℝ} {path : Path} {c : Color} {crisp : Bool} {t : Str} (hc : Proper c)
    (h : svgFillElem height path c crisp = some t) : Element height t [.fill path c crisp] := by
  unfold svgFillElem at h
  cases hd : svgPathData (pathTransform path (svgProj height)) with
  | none => rw [hd] at h; simp at h
  | some d =>
    cases hf : svgFill c with
    | none => rw [hd, hf] at h; simp at h
    | some f =>
      rw [hd, hf] at h
      simp only [Option.bind_eq_bind, Option.bind_some, Option.pure_def, Option.some.injEq] at h
      obtain ⟨o, ho, rfl⟩ := svgFill_eq hf
      have hp := svgPathData_text hd
      rw [transform_flip] at hp
      rw [svgAA_eq, ← attrText_append] at h
      subst h
      obtain ⟨color, opacity, h1, h2, h3⟩ := ops_fill d o c hc ho crisp
      refine ⟨_, run_elem d _ (pathText_plain hp) ?_ (keys_fill c o crisp), ?_⟩
      · intro kv hkv
        rcases List.mem_append.1 hkv with h | h
        · exact fill_plain hc ho kv h
        · exact aa_plain crisp kv h
      · rw [h3]
        exact .cons ⟨hp, h1, h2, rfl⟩ .nil

theorem element_stroke {height : ℝ} {path : Path} {s : StrokeSolid} {crisp : Bool} {t : Str} (hc : Proper s.color)
    (h : svgStrokeElem height path s crisp = some t) :
    Element height t [.stroke path s.color s.width none crisp] := by
  unfold svgStrokeElem at h
  cases hd : svgPathData (pathTransform path (svgProj height)) with
  | none => rw [hd] at h; simp at h
  | some d =>
    cases hf : svgStroke s.color s.width with
    | none => rw [hd, hf] at h; simp at h
    | some f =>
      rw [hd, hf] at h
      simp only [Option.bind_eq_bind, Option.bind_some, Option.pure_def, Option.some.injEq] at h
      obtain ⟨o, w, ho, hw, rfl⟩ := svgStroke_eq hf
      have hp := svgPathData_text hd
      rw [transform_flip] at hp
      have e : svgAttr "fill".toList "none".toList ++ attrText (strokeKvs s.color o w) ++ attrText (aaKvs crisp) =
          attrText (("fill".toList, "none".toList) :: (strokeKvs s.color o w ++ aaKvs crisp)) := by
        simp only [attrText, List.flatMap_cons, List.flatMap_append, List.append_assoc]
      rw [svgAA_eq, e] at h
      subst h
      obtain ⟨opacity, h2, h3⟩ := ops_stroke d o w s.color hc ho crisp
      refine ⟨_, run_elem d _ (pathText_plain hp) ?_ (keys_stroke s.color o w crisp), ?_⟩
      · intro kv hkv
        rcases List.mem_cons.1 hkv with rfl | hkv
        · exact none_plain
        · rcases List.mem_append.1 hkv with h | h
          · exact stroke_plain hc ho hw kv h
          · exact aa_plain crisp kv h
      · rw [h3]
        exact .cons ⟨hp, (colorHex_text hc).1, h2, hw, trivial, rfl⟩ .nil

theorem element_dash {height : ℝ} {path : Path} {s : StrokeDash} {crisp : Bool} {t : Str} (hc : Proper s.color)
    (h : svgDashElem height path s crisp = some t) :
    Element height t [.stroke path s.color s.width (some (s.pattern, s.offset)) crisp] := by
  unfold svgDashElem at h
  cases hpat : s.pattern.mapM svgNumber with
  | none => rw [hpat] at h; simp at h
  | some pat =>
  cases hd : svgPathData (pathTransform path (svgProj height)) with
  | none => rw [hpat, hd] at h; simp at h
  | some d =>
    cases hf : svgStroke s.color s.width with
    | none => rw [hpat, hd, hf] at h; simp at h
    | some f =>
      cases hoff : svgNumber s.offset with
      | none => rw [hpat, hd, hf, svgAttrNum, hoff] at h; simp at h
      | some off =>
      rw [hpat, hd, hf, svgAttrNum, hoff] at h
      simp only [Option.bind_eq_bind, Option.bind_some, Option.pure_def, Option.some.injEq, Option.map_some] at h
      obtain ⟨o, w, ho, hw, rfl⟩ := svgStroke_eq hf
      have hp := svgPathData_text hd
      rw [transform_flip] at hp
      have e : svgAttr "fill".toList "none".toList ++ attrText (strokeKvs s.color o w) ++
          svgAttr "stroke-dasharray".toList (joinSp pat) ++ svgAttr "stroke-dashoffset".toList off ++
            attrText (aaKvs crisp) =
          attrText (("fill".toList, "none".toList) :: (strokeKvs s.color o w ++
            (("stroke-dasharray".toList, joinSp pat) :: ("stroke-dashoffset".toList, off) :: aaKvs crisp))) := by
        simp only [attrText, List.flatMap_cons, List.flatMap_append, List.append_assoc]
      rw [svgAA_eq, e] at h
      subst h
      have hnum := nums_of_mapM hpat
      obtain ⟨opacity, h2, h3⟩ := ops_dash d o w (joinSp pat) off s.color hc ho crisp
      refine ⟨_, run_elem d _ (pathText_plain hp) ?_ (keys_dash s.color o w _ _ crisp), ?_⟩
      · intro kv hkv
        rcases List.mem_cons.1 hkv with rfl | hkv
        · exact none_plain
        · rcases List.mem_append.1 hkv with h | h
          · exact stroke_plain hc ho hw kv h
          · rcases List.mem_cons.1 h with rfl | h
            · exact nums_plain hnum
            · rcases List.mem_cons.1 h with rfl | h
              · exact num_plain (svgNumber_num hoff)
              · exact aa_plain crisp kv h
      · rw [h3]
        exact .cons ⟨hp, (colorHex_text hc).1, h2, hw, ⟨hnum, svgNumber_num hoff⟩, rfl⟩ .nil

theorem element_compound {height : ℝ} {path : Path} {c : Color} {s : StrokeSolid} {crisp : Bool} {t : Str}
    (hc : Proper c) (hk : Proper s.color) (h : svgCompound height path c s crisp = some t) :
    Element height t [.fill path c crisp, .stroke path s.color s.width none crisp] := by
  unfold svgCompound at h
  cases hd : svgPathData (pathTransform path (svgProj height)) with
  | none => rw [hd] at h; simp at h
  | some d =>
    cases hf : svgFill c with
    | none => rw [hd, hf] at h; simp at h
    | some f =>
    cases hs : svgStroke s.color s.width with
    | none => rw [hd, hf, hs] at h; simp at h
    | some k =>
      rw [hd, hf, hs] at h
      simp only [Option.bind_eq_bind, Option.bind_some, Option.pure_def, Option.some.injEq] at h
      obtain ⟨o, ho, rfl⟩ := svgFill_eq hf
      obtain ⟨o', w, ho', hw, rfl⟩ := svgStroke_eq hs
      have hp := svgPathData_text hd
      rw [transform_flip] at hp
      have e : attrText (fillKvs c o) ++ attrText (strokeKvs s.color o' w) ++ attrText (aaKvs crisp) =
          attrText (fillKvs c o ++ (strokeKvs s.color o' w ++ aaKvs crisp)) := by
        simp only [attrText, List.flatMap_append, List.append_assoc]
      rw [svgAA_eq, e] at h
      subst h
      obtain ⟨color, opacity, opacity', h1, h2, h2', h3⟩ := ops_compound d o o' w c s.color hc ho ho' crisp
      refine ⟨_, run_elem d _ (pathText_plain hp) ?_ (keys_compound c s.color o o' w crisp), ?_⟩
      · intro kv hkv
        rcases List.mem_append.1 hkv with h | h
        · exact fill_plain hc ho kv h
        · rcases List.mem_append.1 h with h | h
          · exact stroke_plain hk ho' hw kv h
          · exact aa_plain crisp kv h
      · rw [h3]
        exact .cons ⟨hp, h1, h2, rfl⟩ (.cons ⟨hp, (colorHex_text hk).1, h2', hw, trivial, rfl⟩ .nil)

/-- All colours of a style have components between 0 and 1. -/
def ProperStyle (s : Compound) : Prop :=
  (∀ c ∈ s.fillSolid, Proper c) ∧ (∀ h ∈ s.fillHatch, Proper h.color) ∧ (∀ k ∈ s.strokeSolid, Proper k.color) ∧
    ∀ k ∈ s.strokeDash, Proper k.color

theorem mapM_elements {α : Type} {f : α → Option Str} {g : α → Paint} {height : ℝ} {l : List α} {ts : List Str}
    (hf : ∀ a ∈ l, ∀ t, f a = some t → Element height t [g a]) (h : l.mapM f = some ts) :
    List.Forall₂ (Element height) ts (l.map fun a => [g a]) := by
  induction l generalizing ts with
  | nil => simp at h; subst h; exact .nil
  | cons a l ih =>
    rw [List.mapM_cons] at h
    cases ha : f a with
    | none => simp [ha] at h
    | some b =>
      cases hl : l.mapM f with
      | none => simp [ha, hl] at h
      | some bs =>
        simp [ha, hl] at h
        subst h
        exact .cons (hf a (by simp) b ha) (ih (fun x hx => hf x (by simp [hx])) hl)

theorem flatten_single {α β : Type} (l : List α) (g : α → β) : (l.map fun a => [g a]).flatten = l.map g := by
  induction l with
  | nil => rfl
  | cons a l ih => simp [ih]

theorem forall₂_append {α β : Type} {R : α → β → Prop} {a b : List α} {c d : List β} (h : List.Forall₂ R a c)
    (h' : List.Forall₂ R b d) : List.Forall₂ R (a ++ b) (c ++ d) := by
  induction h with
  | nil => exact h'
  | cons h _ ih => exact .cons h ih

theorem svgAddPath_elements {hatch : Path → FillHatch → Path} {height : ℝ} {c : DrawCmd} {ts : List Str}
    (hp : ProperStyle c.style) (h : svgAddPath hatch height c = some ts) :
    ∃ pss, List.Forall₂ (Element height) ts pss ∧ pss.flatten = paints hatch c := by
  obtain ⟨p1, p2, p3, p4⟩ := hp
  have main : (do
      let a ← c.style.fillSolid.mapM fun f => svgFillElem height c.path f c.crisp
      let b ← c.style.fillHatch.mapM fun h => svgFillElem height (hatch c.path h) h.color c.crisp
      let k ← c.style.strokeSolid.mapM fun s => svgStrokeElem height c.path s c.crisp
      let d ← c.style.strokeDash.mapM fun s => svgDashElem height c.path s c.crisp
      return a ++ b ++ k ++ d) = some ts → ∃ pss, List.Forall₂ (Element height) ts pss ∧ pss.flatten = paints hatch c := by
    intro h
    cases h1 : c.style.fillSolid.mapM fun f => svgFillElem height c.path f c.crisp with
    | none => rw [h1] at h; simp at h
    | some a =>
    cases h2 : c.style.fillHatch.mapM fun h => svgFillElem height (hatch c.path h) h.color c.crisp with
    | none => rw [h1, h2] at h; simp at h
    | some b =>
    cases h3 : c.style.strokeSolid.mapM fun s => svgStrokeElem height c.path s c.crisp with
    | none => rw [h1, h2, h3] at h; simp at h
    | some k =>
    cases h4 : c.style.strokeDash.mapM fun s => svgDashElem height c.path s c.crisp with
    | none => rw [h1, h2, h3, h4] at h; simp at h
    | some d =>
      rw [h1, h2, h3, h4] at h
      simp only [Option.bind_eq_bind, Option.bind_some, Option.pure_def, Option.some.injEq] at h
      subst h
      refine ⟨_, forall₂_append (forall₂_append (forall₂_append
        (mapM_elements (g := fun f => .fill c.path f c.crisp) (fun x hx t ht => element_fill (p1 x hx) ht) h1)
        (mapM_elements (g := fun h => .fill (hatch c.path h) h.color c.crisp)
          (fun x hx t ht => element_fill (p2 x hx) ht) h2))
        (mapM_elements (g := fun s => .stroke c.path s.color s.width none c.crisp)
          (fun x hx t ht => element_stroke (p3 x hx) ht) h3))
        (mapM_elements (g := fun s => .stroke c.path s.color s.width (some (s.pattern, s.offset)) c.crisp)
          (fun x hx t ht => element_dash (p4 x hx) ht) h4), ?_⟩
      simp only [List.flatten_append, flatten_single, paints]
  unfold svgAddPath at h
  split at h
  · next f s e1 e2 e3 e4 =>
    cases hc : svgCompound height c.path f s c.crisp with
    | none => rw [hc] at h; simp at h
    | some t =>
      rw [hc] at h
      simp only [Option.map_some, Option.some.injEq] at h
      subst h
      refine ⟨[_], .cons (element_compound (p1 f (by rw [e1]; simp)) (p3 s (by rw [e3]; simp)) hc) .nil, ?_⟩
      simp [paints, e1, e2, e3, e4]
  · exact main h

theorem cmds_elements {hatch : Path → FillHatch → Path} {height : ℝ} {cmds : List DrawCmd} {tss : List (List Str)}
    (hp : ∀ c ∈ cmds, ProperStyle c.style) (h : cmds.mapM (svgAddPath hatch height) = some tss) :
    ∃ pss, List.Forall₂ (Element height) tss.flatten pss ∧ pss.flatten = cmds.flatMap (paints hatch) := by
  induction cmds generalizing tss with
  | nil => simp at h; subst h; exact ⟨[], .nil, rfl⟩
  | cons c cmds ih =>
    rw [List.mapM_cons] at h
    cases hc : svgAddPath hatch height c with
    | none => simp [hc] at h
    | some ts =>
      cases hl : cmds.mapM (svgAddPath hatch height) with
      | none => simp [hc, hl] at h
      | some rest =>
        simp [hc, hl] at h
        subst h
        obtain ⟨ps, h1, h2⟩ := svgAddPath_elements (hp c (by simp)) hc
        obtain ⟨qs, h3, h4⟩ := ih (fun x hx => hp x (by simp [hx])) hl
        exact ⟨ps ++ qs, by rw [List.flatten_cons]; exact forall₂_append h1 h3, by simp [h2, h4]⟩

/-- Events of the body of the document. -/
def BodyEvent (e : Event) : Prop := e = .text "\n  ".toList ∨ ∃ attrs, e = .empty "path".toList attrs

theorem ops_text (t : Str) : ops (.text t) = [] := rfl

theorem run_elements {height : ℝ} {ts : List Str} {pss : List (List Paint)}
    (h : List.Forall₂ (Element height) ts pss) :
    ∃ evs, run (.data ['\n']) ts.flatten = some (.data ['\n'], evs) ∧ (∀ e ∈ evs, BodyEvent e) ∧
      List.Forall₂ (Shows height) (evs.flatMap ops) pss.flatten := by
  induction h with
  | nil => exact ⟨[], rfl, by simp, .nil⟩
  | cons h _ ih =>
    obtain ⟨attrs, h1, h2⟩ := h
    obtain ⟨evs, h3, h4, h5⟩ := ih
    refine ⟨_, by rw [List.flatten_cons]; exact run_trans h1 h3, ?_, ?_⟩
    · intro e he
      simp only [List.cons_append, List.nil_append, List.mem_cons] at he
      rcases he with rfl | rfl | he
      · exact .inl rfl
      · exact .inr ⟨_, rfl⟩
      · exact h4 e he
    · simp only [List.cons_append, List.nil_append, List.flatMap_cons, ops_text, List.flatten_cons]
      exact forall₂_append h2 h5

theorem nested_body {evs : List Event} (h : ∀ e ∈ evs, BodyEvent e) (stack : List Str) (rest : List Event) :
    nested stack (evs ++ rest) = nested stack rest := by
  induction evs with
  | nil => rfl
  | cons e evs ih =>
    have := ih fun x hx => h x (by simp [hx])
    rcases h e (by simp) with rfl | ⟨attrs, rfl⟩ <;> cases stack <;> simp [nested, this]

/-! ## The document -/

theorem run_bang (s acc : Str) (h : ∀ c ∈ s, c ≠ '>') : run (.bang acc) s = some (.bang (s.reverse ++ acc), []) := by
  induction s generalizing acc with
  | nil => rfl
  | cons c s ih =>
    have hc := h c (by simp)
    rw [run]
    simp only [step, hc, false_and, if_false]
    rw [ih _ fun x hx => h x (by simp [hx])]
    simp

/-- The text of the comment at the beginning. -/
def commentText (version : Str) : Str := " Generated by clip v".toList ++ version ++ " (clip-lang.org) ".toList

def piText : Str := "xml version=\"1.0\" encoding=\"UTF-8\" ".toList

theorem run_comment_end (a b v : Str) :
    run (.bang (('-' :: '-' :: a.reverse) ++ (v.reverse ++ ('-' :: '-' :: b).reverse))) ['>', '\n'] =
      some (.data ['\n'], [.comment (b ++ v ++ a)]) := by
  have h : 2 ≤ List.length a + (List.length v + (List.length b + 2)) := by omega
  simp [run, step, h]

theorem comment_tail : " (clip-lang.org) --".toList.reverse = '-' :: '-' :: " (clip-lang.org) ".toList.reverse := by
  decide +kernel

theorem comment_head : "-- Generated by clip v".toList = '-' :: '-' :: " Generated by clip v".toList := by
  decide +kernel

theorem gt_nl : ">\n".toList = ['>', '\n'] := by decide

theorem run_header (version : Str) (hv : ∀ c ∈ version, c ≠ '>') :
    run (.data []) ("<?xml version=\"1.0\" encoding=\"UTF-8\" ?>\n".toList ++
      "<!-- Generated by clip v".toList ++ version ++ " (clip-lang.org) -->\n".toList) =
      some (.data ['\n'], [.pi piText, .text ['\n'], .comment (commentText version)]) := by
  have h1 : run (.data []) "<?xml version=\"1.0\" encoding=\"UTF-8\" ?>\n".toList =
      some (.data ['\n'], [.pi piText]) := by decide +kernel
  have h2 : run (.data ['\n']) "<!-- Generated by clip v".toList =
      some (.bang "-- Generated by clip v".toList.reverse, [.text ['\n']]) := by decide +kernel
  have h3 := run_bang version "-- Generated by clip v".toList.reverse hv
  have h4 := run_bang " (clip-lang.org) --".toList (version.reverse ++ "-- Generated by clip v".toList.reverse)
    (by decide +kernel)
  have h5 : run (.bang (" (clip-lang.org) --".toList.reverse ++
      (version.reverse ++ "-- Generated by clip v".toList.reverse))) ">\n".toList =
      some (.data ['\n'], [.comment (commentText version)]) := by
    have := run_comment_end " (clip-lang.org) ".toList " Generated by clip v".toList version
    rw [comment_tail, comment_head, gt_nl]
    exact this
  have e : " (clip-lang.org) -->\n".toList = " (clip-lang.org) --".toList ++ ">\n".toList := by decide +kernel
  rw [e, ← List.append_assoc]
  exact run_trans (run_trans (run_trans (run_trans h1 h2) h3) h4) h5

theorem run_tag (open_ : Str) (n : Str) (kvs : List (Str × Str)) (acc : Str) (e : List Event)
    (ho : run (.data acc) open_ = some (.name n.reverse, e)) (hne : kvs ≠ []) (ha : ∀ kv ∈ kvs, Name kv.1)
    (hv : ∀ kv ∈ kvs, Plain kv.2) (hn : (kvs.map Prod.fst).Nodup) :
    run (.data acc) (open_ ++ attrText kvs) = some (.post n kvs, e) := by
  have := run_trans ho (run_attrs_name n.reverse kvs hne ha hv hn)
  simpa using this

theorem run_open_end (n : Str) (attrs : List (Str × Str)) :
    run (.post n attrs) ">\n".toList = some (.data ['\n'], [.opening n attrs]) := by
  rw [gt_nl]
  simp [run, step, show space '>' = false by decide]

theorem run_svg_close : run (.data ['\n']) "</svg>\n".toList = some (.data ['\n'], [.text ['\n'], .closing "svg".toList]) := by
  decide +kernel

theorem xmlns_plain : Plain "http://www.w3.org/2000/svg".toList := by
  have h : ∀ c ∈ "http://www.w3.org/2000/svg".toList, c ≠ '"' ∧ c ≠ '<' ∧ c ≠ '&' := by decide +kernel
  exact h

theorem root_keys : (∀ k ∈ ["xmlns".toList, "width".toList, "height".toList], Name k) ∧
    (["xmlns".toList, "width".toList, "height".toList]).Nodup := by
  have h : ∀ k ∈ ["xmlns".toList, "width".toList, "height".toList], k ≠ [] ∧ ∀ c ∈ k, nameChar c = true := by
    decide +kernel
  exact ⟨h, by decide +kernel⟩

theorem rect_keys : (∀ k ∈ ["width".toList, "height".toList, "fill".toList, "fill-opacity".toList], Name k) ∧
    (["width".toList, "height".toList, "fill".toList, "fill-opacity".toList]).Nodup := by
  have h : ∀ k ∈ ["width".toList, "height".toList, "fill".toList, "fill-opacity".toList],
      k ≠ [] ∧ ∀ c ∈ k, nameChar c = true := by decide +kernel
  exact ⟨h, by decide +kernel⟩

theorem run_root_open : run (.data ['\n']) "<svg".toList = some (.name "svg".toList.reverse, [.text ['\n']]) := by
  decide +kernel

theorem run_rect_open :
    run (.data ['\n']) "  <rect".toList = some (.name "rect".toList.reverse, [.text "\n  ".toList]) := by decide +kernel

/-- Attributes of the root element. -/
def rootKvs (w h : Str) : List (Str × Str) :=
  [("xmlns".toList, "http://www.w3.org/2000/svg".toList), ("width".toList, w), ("height".toList, h)]

/-- Attributes of the background. -/
def rectKvs (w h fill opacity : Str) : List (Str × Str) :=
  [("width".toList, w), ("height".toList, h), ("fill".toList, fill), ("fill-opacity".toList, opacity)]

theorem run_root (w h : Str) (hw : Plain w) (hh : Plain h) :
    run (.data ['\n']) ("<svg".toList ++ attrText (rootKvs w h) ++ ">\n".toList) =
      some (.data ['\n'], [.text ['\n'], .opening "svg".toList (rootKvs w h)]) := by
  refine run_trans (run_tag _ "svg".toList (rootKvs w h) ['\n'] _ run_root_open (by simp [rootKvs]) ?_ ?_ root_keys.2)
    (run_open_end _ _)
  · intro kv hkv
    exact root_keys.1 kv.1 (List.mem_map_of_mem (f := Prod.fst) hkv)
  · intro kv hkv
    simp only [rootKvs, List.mem_cons, List.not_mem_nil, or_false] at hkv
    rcases hkv with rfl | rfl | rfl
    · exact xmlns_plain
    · exact hw
    · exact hh

theorem run_rect (w h f o : Str) (hw : Plain w) (hh : Plain h) (hf : Plain f) (ho : Plain o) :
    run (.data ['\n']) ("  <rect".toList ++ attrText (rectKvs w h f o) ++ "/>\n".toList) =
      some (.data ['\n'], [.text "\n  ".toList, .empty "rect".toList (rectKvs w h f o)]) := by
  refine run_trans (run_tag _ "rect".toList (rectKvs w h f o) ['\n'] _ run_rect_open (by simp [rectKvs]) ?_ ?_
    rect_keys.2) (run_path_close _ _)
  · intro kv hkv
    exact rect_keys.1 kv.1 (List.mem_map_of_mem (f := Prod.fst) hkv)
  · intro kv hkv
    simp only [rectKvs, List.mem_cons, List.not_mem_nil, or_false] at hkv
    rcases hkv with rfl | rfl | rfl | rfl
    · exact hw
    · exact hh
    · exact hf
    · exact ho

theorem doc_eq (version w h f o : Str) (body : Str) :
    "<?xml version=\"1.0\" encoding=\"UTF-8\" ?>\n".toList ++
    "<!-- Generated by clip v".toList ++ version ++ " (clip-lang.org) -->\n".toList ++
    "<svg".toList ++ svgAttr "xmlns".toList "http://www.w3.org/2000/svg".toList ++ svgAttr "width".toList w ++
      svgAttr "height".toList h ++ ">\n".toList ++
    "  <rect".toList ++ svgAttr "width".toList w ++ svgAttr "height".toList h ++ svgAttr "fill".toList f ++
      svgAttr "fill-opacity".toList o ++ "/>\n".toList ++ body ++ "</svg>\n".toList =
    (("<?xml version=\"1.0\" encoding=\"UTF-8\" ?>\n".toList ++
      "<!-- Generated by clip v".toList ++ version ++ " (clip-lang.org) -->\n".toList) ++
      ("<svg".toList ++ attrText (rootKvs w h) ++ ">\n".toList) ++
      ("  <rect".toList ++ attrText (rectKvs w h f o) ++ "/>\n".toList) ++ body) ++ "</svg>\n".toList := by
  simp only [rootKvs, rectKvs, attrText, List.flatMap_cons, List.flatMap_nil, List.append_assoc, List.append_nil,
    List.nil_append]

theorem exportSvg_some {version : Str} {hatch : Path → FillHatch → Path} {l : SvgLayer} {doc : Str}
    (h : exportSvg version hatch l = some doc) :
    ∃ elems w ht op, l.cmds.mapM (svgAddPath hatch l.height) = some elems ∧ svgNumber l.width = some w ∧
      svgNumber l.height = some ht ∧ svgNumber l.background.a = some op ∧
      (("<?xml version=\"1.0\" encoding=\"UTF-8\" ?>\n".toList ++
      "<!-- Generated by clip v".toList ++ version ++ " (clip-lang.org) -->\n".toList) ++
      ("<svg".toList ++ attrText (rootKvs w ht) ++ ">\n".toList) ++
      ("  <rect".toList ++ attrText (rectKvs w ht (colorHexStr l.background false) op) ++ "/>\n".toList) ++
        elems.flatten.flatten) ++ "</svg>\n".toList = doc := by
  unfold exportSvg at h
  obtain ⟨elems, he, h⟩ := Option.bind_eq_some_iff.1 h
  obtain ⟨w', hw, h⟩ := Option.bind_eq_some_iff.1 h
  obtain ⟨h', hh, h⟩ := Option.bind_eq_some_iff.1 h
  obtain ⟨o', ho, h⟩ := Option.bind_eq_some_iff.1 h
  obtain ⟨w, hw2, rfl⟩ := Option.map_eq_some_iff.1 hw
  obtain ⟨ht, hh2, rfl⟩ := Option.map_eq_some_iff.1 hh
  obtain ⟨o, ho2, rfl⟩ := Option.map_eq_some_iff.1 ho
  refine ⟨elems, w, ht, o, he, hw2, hh2, ho2, ?_⟩
  rw [← doc_eq]
  exact Option.some.inj h

theorem read_of_run {doc : Str} {es : List Event} (h : run (.data []) doc = some (.data ['\n'], es))
    (hn : nested [] (es ++ [.text ['\n']]) = true) : Xml.read doc = some (es ++ [.text ['\n']]) := by
  have hfl : flush ['\n'] = some [.text ['\n']] := by decide
  unfold Xml.read
  rw [h]
  simp only [hfl, hn, if_true]

theorem nested_doc (pi cm : Str) (ra ka : List (Str × Str)) (n : Str) (body : List Event) (h : ∀ e ∈ body, BodyEvent e) :
    nested [] ([.pi pi, .text ['\n'], .comment cm] ++ [.text ['\n'], .opening "svg".toList ra] ++
      [.text "\n  ".toList, .empty n ka] ++ body ++ [.text ['\n'], .closing "svg".toList] ++ [.text ['\n']]) = true := by
  generalize "svg".toList = s
  have : ∀ (r : List Event), nested [s] (body ++ r) = nested [s] r := fun r => nested_body h _ r
  simp only [List.cons_append, List.nil_append, List.append_assoc, nested, this]
  simp

theorem reshape (a b c d e f g x y z : Event) (body : List Event) :
    [a, b, c] ++ [d, e] ++ [f, g] ++ body ++ [x, y] ++ [z] = [a, b, c, d, e, f, g] ++ body ++ [x, y, z] := by simp

/-- C34: the exported text is a well-formed XML document: the page as root element with its size, then the background,
then path elements which, in the order of the document, paint exactly what the drawing commands ask for, in their
order, with the vertical axis pointing down. -/
theorem C34_document (version : Str) (hver : '>' ∉ version) (hatch : Path → FillHatch → Path) (l : SvgLayer)
    (hb : Proper l.background) (hp : ∀ c ∈ l.cmds, ProperStyle c.style) (doc : Str)
    (h : exportSvg version hatch l = some doc) :
    ∃ w h bg op body, Num w l.width ∧ Num h l.height ∧ ColorText bg l.background ∧ Num op l.background.a ∧
      Xml.read doc = some
        ([.pi "xml version=\"1.0\" encoding=\"UTF-8\" ".toList, .text ['\n'],
          .comment (" Generated by clip v".toList ++ version ++ " (clip-lang.org) ".toList), .text ['\n'],
          .opening "svg".toList [("xmlns".toList, "http://www.w3.org/2000/svg".toList), ("width".toList, w),
            ("height".toList, h)], .text "\n  ".toList,
          .empty "rect".toList [("width".toList, w), ("height".toList, h), ("fill".toList, bg),
            ("fill-opacity".toList, op)]] ++ body ++
        [.text ['\n'], .closing "svg".toList, .text ['\n']]) ∧
      (∀ e ∈ body, e = .text "\n  ".toList ∨ ∃ attrs, e = .empty "path".toList attrs) ∧
      List.Forall₂ (Shows l.height) (body.flatMap ops) (l.cmds.flatMap (paints hatch)) := by
  obtain ⟨elems, w, ht, op, he, hw, hh, ho, rfl⟩ := exportSvg_some h
  obtain ⟨hbg, hbp, -⟩ := colorHex_text hb
  have nw := svgNumber_num hw
  have nh := svgNumber_num hh
  have no := svgNumber_num ho
  obtain ⟨pss, h1, h2⟩ := cmds_elements hp he
  obtain ⟨body, h3, h4, h5⟩ := run_elements h1
  rw [h2] at h5
  refine ⟨w, ht, _, op, body, nw, nh, hbg, no, ?_, h4, h5⟩
  have hrun := run_trans (run_trans (run_trans (run_trans
    (run_header version fun c hc e => hver (e ▸ hc)) (run_root w ht (num_plain nw) (num_plain nh)))
    (run_rect w ht _ op (num_plain nw) (num_plain nh) hbp (num_plain no))) h3) run_svg_close
  rw [read_of_run hrun (nested_doc _ _ _ _ _ body h4)]
  exact congrArg some (reshape _ _ _ _ _ _ _ _ _ _ body)

/-- The number is in the range of `int`. -/
def IntRange (x : ℝ) : Prop := |x| < 2 ^ 31

theorem svgNumber_defined {x : ℝ} (h : IntRange x) : ∃ t, svgNumber x = some t := by
  unfold svgNumber
  split
  · rw [if_pos]
    · exact ⟨_, rfl⟩
    · obtain ⟨h1, h2⟩ := abs_lt.1 h
      refine ⟨?_, ?_⟩
      · rw [Int.le_floor]; push_cast; linarith
      · rw [Int.floor_lt]; push_cast; linarith
  · exact ⟨_, rfl⟩

theorem mapM_defined {α β : Type} {f : α → Option β} {l : List α} (h : ∀ a ∈ l, ∃ b, f a = some b) :
    ∃ r, l.mapM f = some r := by
  induction l with
  | nil => exact ⟨[], by simp⟩
  | cons a l ih =>
    obtain ⟨b, hb⟩ := h a (by simp)
    obtain ⟨r, hr⟩ := ih fun x hx => h x (by simp [hx])
    exact ⟨b :: r, by simp [List.mapM_cons, hb, hr]⟩

/-- The numbers of a path command. -/
def coords : PathCmd → List ℝ
  | .moveTo x y => [x, y]
  | .lineTo x y => [x, y]
  | .quadTo cx cy x y => [cx, cy, x, y]
  | .cubicTo c1x c1y c2x c2y x y => [c1x, c1y, c2x, c2y, x, y]
  | .close => []

/-- All coordinates of the path are smaller than `m`. -/
def PathBelow (m : ℝ) (p : Path) : Prop := ∀ c ∈ p, ∀ x ∈ coords c, |x| < m

theorem pathData_defined {height : ℝ} {p : Path} (hh : |height| < 2 ^ 30) (hp : PathBelow (2 ^ 30) p) :
    ∃ d, svgPathData (pathTransform p (svgProj height)) = some d := by
  have hfl : ∀ y : ℝ, |y| < 2 ^ 30 → |height - y| < 2 ^ 31 := by
    intro y hy
    have := abs_sub height y
    calc |height - y| ≤ |height| + |y| := this
      _ < 2 ^ 30 + 2 ^ 30 := by linarith
      _ = 2 ^ 31 := by norm_num
  have hw : ∀ y : ℝ, |y| < 2 ^ 30 → |y| < 2 ^ 31 := fun y hy => lt_trans hy (by norm_num)
  have hc : ∀ c ∈ pathTransform p (svgProj height), ∃ t, svgCmd c = some t := by
    rw [transform_flip]
    intro c hc
    obtain ⟨c, hcm, rfl⟩ := List.mem_map.1 hc
    have hb := hp c hcm
    have : ∃ ts, (svgCmdParts (SvgDoc.flip height c)).2.mapM svgNumber = some ts := by
      apply mapM_defined
      intro x hx
      apply svgNumber_defined
      cases c <;> simp [SvgDoc.flip, svgCmdParts, coords] at hx hb
      · rcases hx with rfl | rfl
        · exact hw _ hb.1
        · exact hfl _ hb.2
      · rcases hx with rfl | rfl
        · exact hw _ hb.1
        · exact hfl _ hb.2
      · rcases hx with rfl | rfl | rfl | rfl
        · exact hw _ hb.1
        · exact hfl _ hb.2.1
        · exact hw _ hb.2.2.1
        · exact hfl _ hb.2.2.2
      · rcases hx with rfl | rfl | rfl | rfl | rfl | rfl
        · exact hw _ hb.1
        · exact hfl _ hb.2.1
        · exact hw _ hb.2.2.1
        · exact hfl _ hb.2.2.2.1
        · exact hw _ hb.2.2.2.2.1
        · exact hfl _ hb.2.2.2.2.2
    obtain ⟨ts, hts⟩ := this
    exact ⟨_, by rw [svgCmd, hts]; rfl⟩
  obtain ⟨r, hr⟩ := mapM_defined hc
  exact ⟨_, by rw [svgPathData, hr]; rfl⟩

/-- All numbers of a command are smaller than 2³⁰. -/
def SmallCmd (hatch : Path → FillHatch → Path) (c : DrawCmd) : Prop :=
  PathBelow (2 ^ 30) c.path ∧ (∀ f ∈ c.style.fillSolid, IntRange f.a) ∧
  (∀ h ∈ c.style.fillHatch, IntRange h.color.a ∧ PathBelow (2 ^ 30) (hatch c.path h)) ∧
  (∀ s ∈ c.style.strokeSolid, IntRange s.color.a ∧ IntRange s.width) ∧
  (∀ s ∈ c.style.strokeDash, IntRange s.color.a ∧ IntRange s.width ∧ IntRange s.offset ∧ ∀ x ∈ s.pattern, IntRange x)

theorem svgFill_defined {c : Color} (h : IntRange c.a) : ∃ t, svgFill c = some t := by
  classical
  obtain ⟨o, ho⟩ := svgNumber_defined h
  unfold svgFill svgWhen
  by_cases hb : colorIsBlack c <;> by_cases ha : c.a = 1 <;> simp [hb, ha, svgAttrNum, ho]

theorem svgStroke_defined {c : Color} {w : ℝ} (h : IntRange c.a) (hw : IntRange w) : ∃ t, svgStroke c w = some t := by
  classical
  obtain ⟨o, ho⟩ := svgNumber_defined h
  obtain ⟨w', hw⟩ := svgNumber_defined hw
  unfold svgStroke svgWhen
  by_cases ha : c.a = 1 <;> simp [ha, svgAttrNum, ho, hw]

theorem svgAddPath_defined {hatch : Path → FillHatch → Path} {height : ℝ} {c : DrawCmd} (hh : |height| < 2 ^ 30)
    (h : SmallCmd hatch c) : ∃ ts, svgAddPath hatch height c = some ts := by
  obtain ⟨h0, h1, h2, h3, h4⟩ := h
  obtain ⟨d, hd⟩ := pathData_defined hh h0
  have g1 : ∃ a, (c.style.fillSolid.mapM fun f => svgFillElem height c.path f c.crisp) = some a := by
    apply mapM_defined
    intro f hf
    obtain ⟨t, ht⟩ := svgFill_defined (h1 f hf)
    exact ⟨_, by rw [svgFillElem, hd, ht]; rfl⟩
  have g2 : ∃ a, (c.style.fillHatch.mapM fun h => svgFillElem height (hatch c.path h) h.color c.crisp) = some a := by
    apply mapM_defined
    intro f hf
    obtain ⟨t, ht⟩ := svgFill_defined (h2 f hf).1
    obtain ⟨d', hd'⟩ := pathData_defined hh (h2 f hf).2
    exact ⟨_, by rw [svgFillElem, hd', ht]; rfl⟩
  have g3 : ∃ a, (c.style.strokeSolid.mapM fun s => svgStrokeElem height c.path s c.crisp) = some a := by
    apply mapM_defined
    intro f hf
    obtain ⟨t, ht⟩ := svgStroke_defined (h3 f hf).1 (h3 f hf).2
    exact ⟨_, by rw [svgStrokeElem, hd, ht]; rfl⟩
  have g4 : ∃ a, (c.style.strokeDash.mapM fun s => svgDashElem height c.path s c.crisp) = some a := by
    apply mapM_defined
    intro f hf
    obtain ⟨t, ht⟩ := svgStroke_defined (h4 f hf).1 (h4 f hf).2.1
    obtain ⟨o, ho⟩ := svgNumber_defined (h4 f hf).2.2.1
    obtain ⟨p, hp⟩ := mapM_defined fun x hx => svgNumber_defined ((h4 f hf).2.2.2 x hx)
    exact ⟨_, by rw [svgDashElem, hd, ht, hp, svgAttrNum, ho]; rfl⟩
  obtain ⟨a1, g1⟩ := g1
  obtain ⟨a2, g2⟩ := g2
  obtain ⟨a3, g3⟩ := g3
  obtain ⟨a4, g4⟩ := g4
  unfold svgAddPath
  split
  · next f s e1 e2 e3 e4 =>
    obtain ⟨t, ht⟩ := svgFill_defined (h1 f (by rw [e1]; simp))
    obtain ⟨t', ht'⟩ := svgStroke_defined (h3 s (by rw [e3]; simp)).1 (h3 s (by rw [e3]; simp)).2
    exact ⟨_, by rw [svgCompound, hd, ht, ht']; rfl⟩
  · exact ⟨_, by rw [g1, g2, g3, g4]; rfl⟩

/-- C34: the export succeeds if all numbers are smaller than 2³⁰. -/
theorem C34_defined (version : Str) (hatch : Path → FillHatch → Path) (l : SvgLayer) (hw : |l.width| < 2 ^ 30)
    (hh : |l.height| < 2 ^ 30) (hb : |l.background.a| < 2 ^ 30) (hc : ∀ c ∈ l.cmds, SmallCmd hatch c) :
    ∃ doc, exportSvg version hatch l = some doc := by
  have big : ∀ x : ℝ, |x| < 2 ^ 30 → IntRange x := fun x hx => lt_trans hx (by norm_num)
  obtain ⟨e, he⟩ := mapM_defined fun c hcm => svgAddPath_defined (height := l.height) hh (hc c hcm)
  obtain ⟨w, hw⟩ := svgNumber_defined (big _ hw)
  obtain ⟨h, hh⟩ := svgNumber_defined (big _ hh)
  obtain ⟨o, ho⟩ := svgNumber_defined (big _ hb)
  exact ⟨_, by rw [exportSvg, he, svgAttrNum, hw, svgAttrNum, hh, svgAttrNum, ho]; rfl⟩

/-- C34, violated by the code: the conversion of large whole numbers is undefined. -/
theorem C34_large_undefined (z : ℤ) (h : z < -2 ^ 31 ∨ 2 ^ 31 ≤ z) : svgNumber (z : ℝ) = none := by
  rw [svgNumber, if_pos (by simp), if_neg]
  rw [Int.floor_intCast]; omega

/-- C34, violated by the code: a colour component above 1 (which `rgb(2 0 0)` gives) is written with three digits; the
result is not a colour. -/
theorem C34_improper_color : colorHexStr ⟨2, 0, 0, 1⟩ false = "#1fe0000".toList ∧
    ∀ c, ¬ ColorText (colorHexStr ⟨2, 0, 0, 1⟩ false) c := by
  have e : colorHexStr ⟨2, 0, 0, 1⟩ false = "#1fe0000".toList := by
    have h1 : truncZ ((2 : ℝ) * 255) = 510 := by
      have : (2 : ℝ) * 255 = ((510 : ℤ) : ℝ) := by norm_num
      rw [this, truncZ, if_pos (by norm_num), Int.floor_intCast]
    have h2 : truncZ ((0 : ℝ) * 255) = 0 := by simp [truncZ]
    simp only [colorHexStr, List.cons_append, List.nil_append, List.flatMap_cons, List.flatMap_nil, h1, h2,
      Bool.false_eq_true, if_false]
    decide +kernel
  refine ⟨e, ?_⟩
  rintro c ⟨r, g, b, ⟨c1, c2, c3, c4, c5, c6, h, -⟩, -⟩
  rw [e] at h
  have hl : "#1fe0000".toList.length = 8 := by decide +kernel
  have := congrArg List.length h
  rw [hl] at this
  simp at this

/-- C34: turning the page upside down twice changes nothing, and points of the page stay on the page. -/
theorem C34_flip (height x y : ℝ) :
    (let v := (svgProj height).apply x y; (svgProj height).apply v.x v.y) = ⟨x, y⟩ ∧
    (0 ≤ y → y ≤ height → 0 ≤ ((svgProj height).apply x y).y ∧ ((svgProj height).apply x y).y ≤ height) ∧
    ((svgProj height).apply x y).x = x := by
  have h : ∀ x y, (svgProj height).apply x y = ⟨x, height - y⟩ := by
    intro x y
    simp [svgProj, Mat3.apply, Mat3.mulVec, Mat3.mul, translate2, scale2, Mat3.zero]
    ring
  simp only [h]
  refine ⟨by simp, fun h1 h2 => ⟨by linarith, by linarith⟩, trivial⟩

/-- A blue square with a half transparent black frame. -/
example : ∃ l : SvgLayer, Proper l.background ∧ (∀ c ∈ l.cmds, ProperStyle c.style) ∧ l.cmds ≠ [] ∧
    ∃ doc, exportSvg "0.7".toList (fun p _ => p) l = some doc := by
  have hp : ∀ c ∈ ([⟨0, 0, 1, 1⟩, ⟨0, 0, 0, 0.5⟩, ⟨1, 1, 1, 1⟩] : List Color), Proper c := by
    intro c hc
    simp at hc
    rcases hc with rfl | rfl | rfl <;> simp [Proper]
  refine ⟨⟨100, 100, ⟨1, 1, 1, 1⟩, [⟨[.moveTo 0 0, .lineTo 10 0, .lineTo 10 10.5, .close],
    ⟨[⟨0, 0, 1, 1⟩], [], [⟨⟨0, 0, 0, 0.5⟩, 2⟩], []⟩, false⟩]⟩, hp _ (by simp), ?_, by simp, ?_⟩
  · intro c hc
    simp at hc
    subst hc
    refine ⟨?_, by simp, ?_, by simp⟩ <;> simp <;> exact hp _ (by simp)
  · apply C34_defined
    · norm_num [abs_lt]
    · norm_num [abs_lt]
    · norm_num [abs_lt]
    · intro c hc
      simp at hc
      subst hc
      refine ⟨?_, ?_, by simp, ?_, by simp⟩
      · intro c hc x hx
        simp at hc
        rcases hc with rfl | rfl | rfl | rfl <;> simp [coords] at hx
        · subst hx; norm_num
        · rcases hx with rfl | rfl <;> norm_num [abs_lt]
        · rcases hx with rfl | rfl <;> norm_num [abs_lt]
      · simp [IntRange]; norm_num
      · simp [IntRange]; norm_num [abs_lt]

/-! ## C33 -/

theorem body_chars (s : Str) : ∀ c ∈ svgBody s, c ≠ '<' := by
  intro c hc
  simp only [svgBody, List.mem_flatMap] at hc
  obtain ⟨x, -, hx⟩ := hc
  split at hx
  · simp at hx; rcases hx with rfl | rfl | rfl | rfl | rfl <;> decide
  · split at hx
    · simp at hx; rcases hx with rfl | rfl | rfl | rfl <;> decide
    · next h1 =>
      split at hx
      · simp at hx; rcases hx with rfl | rfl | rfl | rfl <;> decide
      · simp at hx; subst hx; exact h1

theorem unescape_body (s : Str) : unescape none (svgBody s) = some s := by
  induction s with
  | nil => rfl
  | cons c s ih =>
    have e : svgBody (c :: s) = (if c = '&' then ['&', 'a', 'm', 'p', ';'] else if c = '<' then ['&', 'l', 't', ';']
      else if c = '>' then ['&', 'g', 't', ';'] else [c]) ++ svgBody s := rfl
    rw [e]
    split
    · next h => subst h; simp [unescape, ih, entities, List.lookup]
    · next h1 =>
      split
      · next h => subst h; simp [unescape, ih, entities, List.lookup]
      · next h2 =>
        split
        · next h => subst h; simp [unescape, ih, entities, List.lookup]
        · simp [unescape, ih, h1, h2]

theorem run_data (s acc : Str) (h : ∀ c ∈ s, c ≠ '<') : run (.data acc) s = some (.data (s.reverse ++ acc), []) := by
  induction s generalizing acc with
  | nil => rfl
  | cons c s ih =>
    rw [run]
    simp only [step, h c (by simp), if_false]
    rw [ih _ fun x hx => h x (by simp [hx])]
    simp

/-- C33: text in the body of an element is read back exactly, whatever characters it has. -/
theorem C33_body (s : Str) (hs : s ≠ []) :
    Xml.read (['<', 't', '>'] ++ svgBody s ++ ['<', '/', 't', '>']) =
      some [.opening ['t'] [], .text s, .closing ['t']] := by
  have hne : svgBody s ≠ [] := by
    intro h
    have := unescape_body s
    rw [h] at this
    simp [unescape] at this
    exact hs this
  have h1 : run (.data []) ['<', 't', '>'] = some (.data [], [.opening ['t'] []]) := by decide
  have h2 := run_data (svgBody s) [] (body_chars s)
  have h3 : run (.data ((svgBody s).reverse ++ [])) ['<', '/', 't', '>'] =
      some (.data [], [.text s, .closing ['t']]) := by
    have : (svgBody s).reverse ++ [] ≠ [] := by simpa using hne
    have hf : flush ((svgBody s).reverse ++ []) = some [.text s] := by
      rw [flush, if_neg this]
      simp [unescape_body]
    rw [run]
    simp only [step, if_true, hf, Option.map_some]
    simp [run, step, show nameChar 't' = true by decide, show nameChar '>' = false by decide]
  have := run_trans (run_trans h1 h2) h3
  unfold Xml.read
  rw [this]
  simp [flush, nested]

/-- C33: an attribute value without `"`, `<` and `&` is read back exactly. -/
theorem C33_attr_partial (k v : Str) (hk : Name k) (hv : Plain v) :
    Xml.read (['<', 't'] ++ svgAttr k v ++ ['/', '>']) = some [.empty ['t'] [(k, v)]] := by
  have h1 : run (.data []) ['<', 't'] = some (.name ['t'], []) := by decide
  have h2 := run_attr_name ['t'] k v hk hv
  have h3 : run (.post ['t'].reverse [(k, v)]) ['/', '>'] = some (.data [], [.empty ['t'] [(k, v)]]) := by
    simp [run, step, show space '/' = false by decide]
  have := run_trans (run_trans h1 h2) h3
  unfold Xml.read
  rw [this]
  simp [flush, nested]

/-- C33, violated by the code: a `"` in an attribute value ends the value (a backslash is added to it); what follows is
read as markup. -/
theorem C33_attr_quote (n k a b : Str) (hk : Name k) (ha : Plain a) :
    run (.name n) (svgAttr k (a ++ '"' :: b)) =
      run (.post n.reverse [(k, a ++ ['\\'])]) (svgAttrEscape b ++ ['"']) := by
  have e : svgAttr k (a ++ '"' :: b) = svgAttr k (a ++ ['\\']) ++ (svgAttrEscape b ++ ['"']) := by
    simp [svgAttr, svgAttrEscape]
  have hp : Plain (a ++ ['\\']) := plain_append ha (by intro c hc; simp at hc; subst hc; decide)
  rw [e, run_append, run_attr_name n k _ hk hp]
  simp

/-- C33, violated by the code: `&` and `<` are not escaped in attribute values: an entity in the text is replaced, a `<`
makes the document ill-formed. -/
theorem C33_attr_raw : Xml.read (['<', 't'] ++ svgAttr ['k'] "&amp;".toList ++ ['/', '>']) = some [.empty ['t'] [(['k'], ['&'])]] ∧
    Xml.read (['<', 't'] ++ svgAttr ['k'] "a<b".toList ++ ['/', '>']) = none ∧
    Xml.read (['<', 't'] ++ svgAttr ['k'] "R&D".toList ++ ['/', '>']) = none := by
  decide +kernel

example : Name "font-family".toList ∧ Plain "Helvetica, Arial".toList := by
  have h : ("font-family".toList ≠ [] ∧ ∀ c ∈ "font-family".toList, nameChar c = true) ∧
      ∀ c ∈ "Helvetica, Arial".toList, c ≠ '"' ∧ c ≠ '<' ∧ c ≠ '&' := by decide +kernel
  exact h

/-! ## C73 -/

/-- C73: a shape is added at the end of the draw list; it paints its fill, if it has a fill colour, and then its
stroke, if the line is not of width 0, and nothing else. -/
theorem C73_draw_shape (hatch : Path → FillHatch → Path) (drawlist : List DrawCmd) (path : Path) (stroke : StrokeStyle)
    (fill : FillStyle) (crisp : Bool) :
    ∃ c, drawShape drawlist path Compound.none stroke fill crisp = drawlist ++ [c] ∧
      paints hatch c =
        (match fill.color, fill.hatch with
         | none, _ => []
         | some col, none => [.fill path col crisp]
         | some col, some (angle, offset, stride, width) =>
           [.fill (hatch path ⟨col, angle, offset, stride, width⟩) col crisp]) ++
        (if stroke.width = 0 then [] else
          [.stroke path stroke.color stroke.width (stroke.dash.map fun d => (d.2, d.1)) crisp]) := by
  refine ⟨_, rfl, ?_⟩
  obtain ⟨fc, fh⟩ := fill
  obtain ⟨sw, sc, sd⟩ := stroke
  by_cases hw : sw = 0
  · cases fc with
    | none => simp [addFill, addStroke, hw, Compound.none, paints]
    | some col =>
      cases fh with
      | none => simp [addFill, addStroke, hw, Compound.none, paints]
      | some h => simp [addFill, addStroke, hw, Compound.none, paints]
  · cases fc with
    | none => cases sd <;> simp [addFill, addStroke, hw, Compound.none, paints]
    | some col =>
      cases fh with
      | none => cases sd <;> simp [addFill, addStroke, hw, Compound.none, paints]
      | some h => cases sd <;> simp [addFill, addStroke, hw, Compound.none, paints]

/-- C73: the same for a shape that already has a style: everything it painted is still painted, and the fill and the
stroke are painted in addition. -/
theorem C73_draw_shape_onto (hatch : Path → FillHatch → Path) (drawlist : List DrawCmd) (path : Path) (style : Compound)
    (stroke : StrokeStyle) (fill : FillStyle) (crisp : Bool) :
    ∃ c, drawShape drawlist path style stroke fill crisp = drawlist ++ [c] ∧
      (paints hatch c).Perm (paints hatch ⟨path, style, crisp⟩ ++
        (match fill.color, fill.hatch with
         | none, _ => []
         | some col, none => [.fill path col crisp]
         | some col, some (angle, offset, stride, width) =>
           [.fill (hatch path ⟨col, angle, offset, stride, width⟩) col crisp]) ++
        (if stroke.width = 0 then [] else
          [.stroke path stroke.color stroke.width (stroke.dash.map fun d => (d.2, d.1)) crisp])) := by
  refine ⟨_, rfl, ?_⟩
  obtain ⟨fc, fh⟩ := fill
  obtain ⟨sw, sc, sd⟩ := stroke
  classical
  rw [List.perm_iff_count]
  intro a
  by_cases hw : sw = 0
  · cases fc with
    | none => simp [addFill, addStroke, hw, paints]
    | some col =>
      cases fh with
      | none => simp [addFill, addStroke, hw, paints, List.count_append, List.count_cons]; omega
      | some h => simp [addFill, addStroke, hw, paints, List.count_append, List.count_cons]; omega
  · cases fc with
    | none => cases sd <;> simp [addFill, addStroke, hw, paints, List.count_append, List.count_cons] <;> omega
    | some col =>
      cases fh with
      | none => cases sd <;> simp [addFill, addStroke, hw, paints, List.count_append, List.count_cons] <;> omega
      | some h => cases sd <;> simp [addFill, addStroke, hw, paints, List.count_append, List.count_cons] <;> omega

end
end Clip
