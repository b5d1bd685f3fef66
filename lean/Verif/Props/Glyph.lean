import Verif.Spec.Glyph
import Mathlib.Tactic.Linarith
import Mathlib.Tactic.NormNum
import Mathlib.Tactic.Ring
/-!
# C100: the outlines of glyphs
-/
namespace Clip
noncomputable section
open GlyphSpec

/-- How the code stores a point: with the y axis down. -/
def stored : Pt → GlyphPoint
  | .on p => ⟨.on, ⟨p.x, -p.y⟩⟩
  | .conic p => ⟨.off2, ⟨p.x, -p.y⟩⟩
  | .cubic p => ⟨.off3, ⟨p.x, -p.y⟩⟩

theorem midPoint_flip (c d : Vec2) :
    midPoint ⟨c.x, -c.y⟩ ⟨d.x, -d.y⟩ = ⟨(middle c d).x, -(middle c d).y⟩ := by
  simp only [midPoint, middle, Vec2.mk.injEq]
  constructor <;> ring

theorem curveTag_of {r : RawPt} {p : Pt} (h : IsPt r p) :
    ∃ k, curveTag r.flags = some k ∧ (⟨k, ⟨(r.x : ℝ) / 64, -(r.y : ℝ) / 64⟩⟩ : GlyphPoint) = stored p := by
  rcases h with ⟨h, rfl⟩ | ⟨h, rfl⟩ | ⟨h, rfl⟩ <;> simp [curveTag, h, stored, neg_div]

/-! ## The contours -/

theorem mapM_except_ok {α β ε : Type} (f : α → Except ε β) (g : α → β) (l : List α) (h : ∀ a ∈ l, f a = .ok (g a)) :
    l.mapM f = .ok (l.map g) := by
  induction l with
  | nil => rfl
  | cons a l ih =>
    rw [List.mapM_cons, h a (by simp), ih (fun b hb => h b (by simp [hb]))]
    rfl

theorem mapM_range (o : FtOutline) (pre c post : List RawPt) (pts : List Pt) (hc : List.Forall₂ IsPt c pts)
    (h1 : o.points = (pre ++ c ++ post).map (fun p => (p.x, p.y))) (h2 : o.tags = (pre ++ c ++ post).map (·.flags)) :
    (List.range' pre.length c.length).mapM (glyphPoint o) = .ok (pts.map stored) := by
  induction hc generalizing pre with
  | nil => rfl
  | @cons r p c pts hr hc ih =>
    have g : glyphPoint o pre.length = .ok (stored p) := by
      obtain ⟨k, hk, e⟩ := curveTag_of hr
      unfold glyphPoint
      rw [h1, h2]
      simp [hk, e]
    have := ih (pre ++ [r]) (by rw [h1]; simp) (by rw [h2]; simp)
    simp only [List.length_append, List.length_cons, List.length_nil] at this
    rw [List.length_cons, List.range'_succ, List.mapM_cons, g]
    simp only [Nat.zero_add] at this
    rw [this]
    rfl

theorem glyphContours_ok (o : FtOutline) (pre : List RawPt) (cs : List (List RawPt)) (ptss : List (List Pt))
    (hc : List.Forall₂ (List.Forall₂ IsPt) cs ptss) (hne : ∀ c ∈ cs, c ≠ [])
    (h1 : o.points = (pre ++ cs.flatten).map (fun p => (p.x, p.y))) (h2 : o.tags = (pre ++ cs.flatten).map (·.flags)) :
    glyphContours o pre.length (lastIndices pre.length cs) = .ok (ptss.map (·.map stored)) := by
  induction hc generalizing pre with
  | nil => rfl
  | @cons c pts cs ptss h hc ih =>
    have hl : 0 < c.length := List.length_pos_iff.2 (hne c (by simp))
    have e1 : pre.length + c.length - 1 + 1 = pre.length + c.length := by omega
    have e2 : pre.length + c.length - pre.length = c.length := by omega
    simp only [lastIndices, glyphContours, e1, e2]
    rw [mapM_range o pre c cs.flatten pts h (by rw [h1]; simp) (by rw [h2]; simp)]
    have := ih (pre ++ c) (fun c hc => hne c (by simp [hc])) (by rw [h1]; simp) (by rw [h2]; simp)
    rw [List.length_append] at this
    simp only [bind, Except.bind, this]
    rfl

/-! ## The segments -/

theorem insertVirtual_on (p : Vec2) (l : List GlyphPoint) : insertVirtual (⟨.on, p⟩ :: l) = ⟨.on, p⟩ :: insertVirtual l := by
  cases l with
  | nil => rfl
  | cons b r => rw [insertVirtual, if_neg (by simp)]

theorem insertVirtual_off3 (p : Vec2) (l : List GlyphPoint) : insertVirtual (⟨.off3, p⟩ :: l) = ⟨.off3, p⟩ :: insertVirtual l := by
  cases l with
  | nil => rfl
  | cons b r => rw [insertVirtual, if_neg (by simp)]

theorem insertVirtual_head (a : GlyphPoint) (l : List GlyphPoint) : ∃ r, insertVirtual (a :: l) = a :: r := by
  cases l with
  | nil => exact ⟨_, rfl⟩
  | cons b r => rw [insertVirtual]; split <;> exact ⟨_, rfl⟩

theorem insertVirtual_append (l : List GlyphPoint) (p : Vec2) : insertVirtual (l ++ [⟨.on, p⟩]) = insertVirtual l ++ [⟨.on, p⟩] := by
  induction l with
  | nil => rfl
  | cons a l ih =>
    cases l with
    | nil => simp [insertVirtual]
    | cons b r =>
      simp only [List.cons_append, insertVirtual] at ih ⊢
      rw [ih]
      split <;> rfl

theorem insertVirtual_last (l : List GlyphPoint) (a : GlyphPoint) : ∃ r, insertVirtual (l ++ [a]) = r ++ [a] := by
  induction l with
  | nil => exact ⟨[], rfl⟩
  | cons b l ih =>
    obtain ⟨r, hr⟩ := ih
    cases l with
    | nil =>
      simp only [List.nil_append, List.cons_append, insertVirtual]
      split
      · exact ⟨[b, _], rfl⟩
      · exact ⟨[b], rfl⟩
    | cons c l =>
      simp only [List.cons_append, insertVirtual] at hr ⊢
      rw [hr]
      split
      · exact ⟨b :: _ :: r, rfl⟩
      · exact ⟨b :: r, rfl⟩

theorem glyphSegments_curve {p : Vec2} {pts : List Pt} {s : Path} (h : Curve p pts s) :
    glyphSegments (⟨.on, ⟨p.x, -p.y⟩⟩ :: insertVirtual (pts.map stored)) = s := by
  induction h with
  | done p => simp [insertVirtual, glyphSegments]
  | line p q r s h ih =>
    rw [List.map_cons, stored, insertVirtual_on, glyphSegments, ih]; simp
  | quad p c q r s h ih =>
    rw [List.map_cons, List.map_cons, stored, stored, insertVirtual, if_neg (by simp), insertVirtual_on, glyphSegments, ih]
    simp
  | implied p c d r s h ih =>
    rw [List.map_cons, List.map_cons, stored, stored, insertVirtual, if_pos ⟨rfl, rfl⟩, midPoint_flip, glyphSegments]
    rw [List.map_cons, stored] at ih
    rw [ih]; simp
  | cubic p c d q r s h ih =>
    rw [List.map_cons, List.map_cons, List.map_cons, stored, stored, stored, insertVirtual_off3, insertVirtual_off3,
      insertVirtual_on, glyphSegments, ih]
    simp

/-- A contour that ends where it starts: one more line of length zero. -/
theorem glyphSegments_append {p q : Vec2} {pts : List Pt} {s : Path} (h : Curve p (pts ++ [.on q]) s) :
    glyphSegments (⟨.on, ⟨p.x, -p.y⟩⟩ :: insertVirtual ((pts ++ [Pt.on q]).map stored) ++ [⟨.on, ⟨q.x, -q.y⟩⟩]) =
      s ++ [.lineTo q.x q.y] := by
  have h' : Curve p (pts ++ [.on q] ++ [.on q]) (s ++ [.lineTo q.x q.y]) := by
    generalize hl : pts ++ [.on q] = l at h
    induction h generalizing pts with
    | done p => simp at hl
    | line p q' r s h ih =>
      rcases List.eq_nil_or_concat' r with rfl | ⟨r', b, rfl⟩
      · cases h
        exact .line _ _ _ _ (.line _ _ _ _ (.done _))
      · cases pts with
        | nil => simp at hl
        | cons a pts =>
          simp only [List.cons_append, List.cons.injEq] at hl
          exact .line _ _ _ _ (ih hl.2)
    | quad p c q' r s h ih =>
      rcases List.eq_nil_or_concat' r with rfl | ⟨r', b, rfl⟩
      · cases h
        exact .quad _ _ _ _ _ (.line _ _ _ _ (.done _))
      · match pts, hl with
        | [], hl => simp at hl
        | [_], hl => simp at hl
        | _ :: _ :: pts, hl =>
          simp only [List.cons_append, List.cons.injEq] at hl
          exact .quad _ _ _ _ _ (ih hl.2.2)
    | implied p c d r s h ih =>
      cases pts with
      | nil => simp at hl
      | cons a pts =>
        simp only [List.cons_append, List.cons.injEq] at hl
        exact .implied _ _ _ _ _ (ih hl.2)
    | cubic p c d q' r s h ih =>
      rcases List.eq_nil_or_concat' r with rfl | ⟨r', b, rfl⟩
      · cases h
        exact .cubic _ _ _ _ _ _ (.line _ _ _ _ (.done _))
      · match pts, hl with
        | [], hl => simp at hl
        | [_], hl => simp at hl
        | [_, _], hl => simp at hl
        | _ :: _ :: _ :: pts, hl =>
          simp only [List.cons_append, List.cons.injEq] at hl
          exact .cubic _ _ _ _ _ _ (ih hl.2.2.2)
  have := glyphSegments_curve h'
  rw [List.map_append, List.map_singleton, stored, insertVirtual_append] at this
  exact this

theorem closeContour_last (c : List GlyphPoint) (h : c ≠ []) (q : Vec2) (hf : (c.head h).tag = .off2)
    (hl : c.getLast h = ⟨.on, q⟩) : closeContour c h = ⟨.on, q⟩ :: c ++ [⟨.on, q⟩] := by
  unfold closeContour startMiddle startLast
  simp [hf, hl]

theorem closeContour_between (c : List GlyphPoint) (h : c ≠ []) (a b : Vec2) (hf : c.head h = ⟨.off2, a⟩)
    (hl : c.getLast h = ⟨.off2, b⟩) : closeContour c h = ⟨.on, midPoint a b⟩ :: c ++ [⟨.on, midPoint a b⟩] := by
  unfold closeContour startMiddle startLast
  simp [hf, hl]

theorem contourPath_ok {pts : List Pt} {path : Path} (h : Contour pts path) : contourPath (pts.map stored) = .ok path := by
  cases h with
  | first p r s h =>
    have hs := glyphSegments_curve h
    rw [List.map_append, List.map_singleton, stored, insertVirtual_append] at hs
    unfold contourPath
    rw [List.map_cons, stored, insertVirtual_on]
    simp only [closeContour, startMiddle, startLast, List.head_cons]
    simp only [reduceCtorEq, false_and, if_false, List.head_cons, List.cons_append]
    simp [hs]
  | last c q r s h =>
    have hs := glyphSegments_append (pts := .conic c :: r) h
    obtain ⟨l, hl⟩ := insertVirtual_last ((Pt.conic c :: r).map stored) (stored (.on q))
    obtain ⟨m, hm⟩ := insertVirtual_head (stored (.conic c)) ((r ++ [Pt.on q]).map stored)
    have e : List.map stored (Pt.conic c :: r ++ [Pt.on q]) = stored (.conic c) :: List.map stored (r ++ [Pt.on q]) := by simp
    have hl' : stored (.conic c) :: m = l ++ [stored (.on q)] := by
      rw [← hl, ← hm]; congr 1; simp
    rw [e, hm] at hs
    rw [e]
    unfold contourPath
    rw [hm]
    simp only
    rw [closeContour_last _ _ ⟨q.x, -q.y⟩ rfl (by
      simp only [hl', List.getLast_append, List.getLast_singleton]; simp [stored])]
    rw [List.cons_append, List.cons_append] at hs
    simp [hs]
  | between c d r l s e h =>
    have hs := glyphSegments_curve h
    obtain ⟨k, hk⟩ := insertVirtual_last (l.map stored) (stored (.conic d))
    obtain ⟨m, hm⟩ := insertVirtual_head (stored (.conic c)) (r.map stored)
    have hl' : stored (.conic c) :: m = k ++ [stored (.conic d)] := by
      rw [← hk, ← hm]
      have := congrArg (List.map stored) e
      simp only [List.map_cons, List.map_append, List.map_nil] at this
      rw [this]
    rw [List.map_append, List.map_singleton, stored, insertVirtual_append, List.map_cons, hm] at hs
    unfold contourPath
    rw [List.map_cons, hm]
    simp only
    rw [closeContour_between _ _ ⟨c.x, -c.y⟩ ⟨d.x, -d.y⟩ rfl (by
      simp only [hl', List.getLast_append, List.getLast_singleton]; simp [stored]), midPoint_flip]
    rw [List.cons_append] at hs ⊢
    simp [hs]

/-- C100: the path of a glyph draws the contours of its outline, one after the other. -/
theorem C100_outline (o : FtOutline) (contours : List (List RawPt)) (hs : Stores o contours) (ptss : List (List Pt)) (paths : List Path)
    (hp : List.Forall₂ (List.Forall₂ IsPt) contours ptss) (hc : List.Forall₂ Contour ptss paths) :
    glyphOutlinePath o = .ok paths.flatten := by
  have hne : ∀ c ∈ contours, c ≠ [] := by
    clear hs
    induction hp generalizing paths with
    | nil => simp
    | cons h hp ih =>
      cases hc with
      | cons h1 hc =>
        intro c hc'
        rcases List.mem_cons.1 hc' with rfl | hc'
        · rintro rfl
          cases h
          generalize hn : ([] : List Pt) = n at h1
          cases h1 <;> simp at hn
        · exact ih _ hc c hc'
  obtain ⟨h1, h2, h3⟩ := hs
  unfold glyphOutlinePath
  have := glyphContours_ok o [] contours ptss hp hne (by simpa using h1) (by simpa using h2)
  rw [h3]
  simp only [List.length_nil] at this
  rw [this]
  have hm : (ptss.map (·.map stored)).mapM contourPath = .ok paths := by
    clear this hp h1 h2 h3
    induction hc with
    | nil => rfl
    | cons h hc ih =>
      rw [List.map_cons, List.mapM_cons, contourPath_ok h]
      simp only [bind, Except.bind, ih]
      rfl
  simp only [bind, Except.bind, hm]
  rfl

/-! ## All outlines -/

theorem glyphSegments_draws (l : List GlyphPoint) : ∀ c ∈ glyphSegments l, GlyphSpec.Draws c := by
  fun_induction glyphSegments l with
  | case1 p q r ih => intro c hc; rcases List.mem_cons.1 hc with rfl | hc; exacts [trivial, ih c hc]
  | case2 p a b q r ih => intro c hc; rcases List.mem_cons.1 hc with rfl | hc; exacts [trivial, ih c hc]
  | case3 p a q r ih => intro c hc; rcases List.mem_cons.1 hc with rfl | hc; exacts [trivial, ih c hc]
  | case4 => simp

theorem mapM_except_forall₂ {α β ε : Type} (f : α → Except ε β) (l : List α) (m : List β) (h : l.mapM f = .ok m) :
    List.Forall₂ (fun a b => f a = .ok b) l m := by
  induction l generalizing m with
  | nil => cases h; exact .nil
  | cons a l ih =>
    rw [List.mapM_cons] at h
    cases ha : f a with
    | error e => rw [ha] at h; cases h
    | ok b =>
      rw [ha] at h
      simp only [bind, Except.bind] at h
      cases hl : l.mapM f with
      | error e => rw [hl] at h; cases h
      | ok m' =>
        rw [hl] at h
        cases h
        exact .cons ha (ih m' hl)

theorem forall₂_right {α β : Type} {R : α → β → Prop} {l : List α} {m : List β} (h : List.Forall₂ R l m) :
    ∀ b ∈ m, ∃ a ∈ l, R a b := by
  induction h with
  | nil => simp
  | cons h _ ih =>
    intro b hb
    rcases List.mem_cons.1 hb with rfl | hb
    · exact ⟨_, by simp, h⟩
    · obtain ⟨a, ha, hr⟩ := ih b hb
      exact ⟨a, by simp [ha], hr⟩

theorem glyphContours_length (o : FtOutline) (start : ℕ) (ends : List ℕ) (cs : List (List GlyphPoint))
    (h : glyphContours o start ends = .ok cs) : cs.length = ends.length := by
  induction ends generalizing start cs with
  | nil => cases h; rfl
  | cons e ends ih =>
    rw [glyphContours] at h
    cases h1 : (List.range' start (e + 1 - start)).mapM (glyphPoint o) with
    | error x => rw [h1] at h; cases h
    | ok c =>
      rw [h1] at h
      simp only [bind, Except.bind] at h
      cases h2 : glyphContours o (e + 1) ends with
      | error x => rw [h2] at h; cases h
      | ok cs' =>
        rw [h2] at h
        cases h
        simp [ih _ _ h2]

theorem contourPath_shape {c : List GlyphPoint} {path : Path} (h : contourPath c = .ok path) :
    ∃ x y body, path = .moveTo x y :: body ++ [.close] ∧ ∀ b ∈ body, GlyphSpec.Draws b := by
  unfold contourPath at h
  split at h
  · cases h
  · split at h
    · cases h
    · split at h
      · cases h
      · cases h
        exact ⟨_, _, _, rfl, glyphSegments_draws _⟩

/-- C100: whatever the font file contains, the path of a glyph consists of one closed curve per contour. -/
theorem C100_closed (o : FtOutline) (path : Path) (h : glyphOutlinePath o = .ok path) :
    ∃ parts : List Path, path = parts.flatten ∧ parts.length = o.contours.length ∧
      ∀ part ∈ parts, ∃ x y body, part = .moveTo x y :: body ++ [.close] ∧ ∀ c ∈ body, GlyphSpec.Draws c := by
  unfold glyphOutlinePath at h
  cases h1 : glyphContours o 0 o.contours with
  | error e => rw [h1] at h; cases h
  | ok cs =>
    rw [h1] at h
    simp only [bind, Except.bind] at h
    cases h2 : cs.mapM contourPath with
    | error e => rw [h2] at h; cases h
    | ok ps =>
      rw [h2] at h
      cases h
      have h3 := mapM_except_forall₂ _ _ _ h2
      refine ⟨ps, rfl, by rw [← h3.length_eq, glyphContours_length o 0 _ _ h1], ?_⟩
      intro part hp
      obtain ⟨d, -, hpd⟩ := forall₂_right h3 part hp
      exact contourPath_shape hpd

/-! ## The extent -/

section Extent
variable (inside : ℝ → ℝ → Prop)
  (hmid : ∀ a b c d, inside a b → inside c d → inside ((a + c) / 2) ((b + d) / 2))

/-- A stored point is inside. -/
def InsideAt (p : GlyphPoint) : Prop := inside p.pos.x (-p.pos.y)

include hmid

theorem inside_mid {p q : Vec2} (hp : inside p.x (-p.y)) (hq : inside q.x (-q.y)) :
    inside (midPoint p q).x (-(midPoint p q).y) := by
  have := hmid _ _ _ _ hp hq
  have e1 : (midPoint p q).x = (p.x + q.x) / 2 := by unfold midPoint; ring
  have e2 : -(midPoint p q).y = (-p.y + -q.y) / 2 := by unfold midPoint; ring
  rw [e1, e2]; exact this

theorem insertVirtual_inside (l : List GlyphPoint) (h : ∀ p ∈ l, InsideAt inside p) : ∀ p ∈ insertVirtual l, InsideAt inside p := by
  fun_induction insertVirtual l with
  | case1 a b r hc ih =>
    intro p hp
    simp only [List.mem_cons] at hp
    rcases hp with rfl | rfl | hp
    · exact h _ (by simp)
    · exact inside_mid inside hmid (h a (by simp)) (h b (by simp))
    · exact ih (fun p hp => h p (List.mem_cons_of_mem _ hp)) p hp
  | case2 a b r hc ih =>
    intro p hp
    rcases List.mem_cons.1 hp with rfl | hp
    · exact h _ (by simp)
    · exact ih (fun p hp => h p (List.mem_cons_of_mem _ hp)) p hp
  | case3 => exact h

theorem closeContour_inside (c : List GlyphPoint) (hc : c ≠ []) (h : ∀ p ∈ c, InsideAt inside p) :
    ∀ p ∈ closeContour c hc, InsideAt inside p := by
  have hd : ∀ p ∈ startLast c hc, InsideAt inside p := by
    intro p hp
    unfold startLast at hp
    split at hp
    · rcases List.mem_cons.1 hp with rfl | hp
      · exact h _ (List.getLast_mem hc)
      · exact h p hp
    · exact h p hp
  have he : ∀ p ∈ startMiddle (startLast c hc) (startLast_ne c hc), InsideAt inside p := by
    intro p hp
    unfold startMiddle at hp
    split at hp
    · rcases List.mem_cons.1 hp with rfl | hp
      · exact inside_mid inside hmid (hd _ (List.head_mem _)) (hd _ (List.getLast_mem _))
      · exact hd p hp
    · exact hd p hp
  intro p hp
  unfold closeContour at hp
  rcases List.mem_append.1 hp with hp | hp
  · exact he p hp
  · rw [List.mem_singleton.1 hp]
    exact he _ (List.head_mem _)

omit hmid in
theorem glyphSegments_inside (l : List GlyphPoint) (h : ∀ p ∈ l, InsideAt inside p) : ∀ c ∈ glyphSegments l, Within inside c := by
  fun_induction glyphSegments l with
  | case1 p q r ih =>
    intro c hc
    rcases List.mem_cons.1 hc with rfl | hc
    · exact h ⟨.on, q⟩ (by simp)
    · exact ih (fun p hp => h p (List.mem_cons_of_mem _ hp)) c hc
  | case2 p a b q r ih =>
    intro c hc
    rcases List.mem_cons.1 hc with rfl | hc
    · exact ⟨h ⟨.off3, a⟩ (by simp), h ⟨.off3, b⟩ (by simp), h ⟨.on, q⟩ (by simp)⟩
    · exact ih (fun p hp => h p (by simp only [List.mem_cons] at hp ⊢; tauto)) c hc
  | case3 p a q r ih =>
    intro c hc
    rcases List.mem_cons.1 hc with rfl | hc
    · exact ⟨h ⟨.off2, a⟩ (by simp), h ⟨.on, q⟩ (by simp)⟩
    · exact ih (fun p hp => h p (by simp only [List.mem_cons] at hp ⊢; tauto)) c hc
  | case4 => simp

theorem contourPath_inside {c : List GlyphPoint} {path : Path} (hc : contourPath c = .ok path) (h : ∀ p ∈ c, InsideAt inside p) :
    ∀ b ∈ path, Within inside b := by
  have h1 := insertVirtual_inside inside hmid c h
  unfold contourPath at hc
  split at hc
  · cases hc
  · rename_i a r e
    rw [e] at h1
    have h2 := closeContour_inside inside hmid _ (by simp) h1
    split at hc
    · cases hc
    · rename_i q ps e2
      rw [e2] at h2
      split at hc
      · cases hc
      · cases hc
        intro b hb
        simp only [List.cons_append, List.mem_cons, List.mem_append, List.not_mem_nil, or_false] at hb
        rcases hb with rfl | hb | rfl
        · exact h2 q (by simp)
        · exact glyphSegments_inside inside _ h2 b hb
        · trivial

end Extent

theorem glyphContours_inside (inside : ℝ → ℝ → Prop) (o : FtOutline) (h : ∀ p ∈ o.points, inside ((p.1 : ℝ) / 64) ((p.2 : ℝ) / 64))
    (start : ℕ) (ends : List ℕ) (cs : List (List GlyphPoint)) (hc : glyphContours o start ends = .ok cs) :
    ∀ c ∈ cs, ∀ p ∈ c, InsideAt inside p := by
  induction ends generalizing start cs with
  | nil => cases hc; simp
  | cons e ends ih =>
    rw [glyphContours] at hc
    cases h1 : (List.range' start (e + 1 - start)).mapM (glyphPoint o) with
    | error x => rw [h1] at hc; cases hc
    | ok c =>
      rw [h1] at hc
      simp only [bind, Except.bind] at hc
      cases h2 : glyphContours o (e + 1) ends with
      | error x => rw [h2] at hc; cases hc
      | ok cs' =>
        rw [h2] at hc
        cases hc
        have h3 := mapM_except_forall₂ _ _ _ h1
        intro d hd
        rcases List.mem_cons.1 hd with rfl | hd
        · intro p hp'
          obtain ⟨n, -, hp⟩ := forall₂_right h3 p hp'
          unfold glyphPoint at hp
          split at hp
          · rename_i x y t e1 e2
            split at hp
            · cases hp
            · cases hp
              have := h (x, y) (List.mem_of_getElem? e1)
              simpa [InsideAt, neg_div] using this
          · cases hp
        · exact ih _ _ h2 d hd

/-- C100: a glyph is nowhere larger than its points: if these are in a convex region (a box, say), so is every coordinate
of the path, control points included. -/
theorem C100_extent (inside : ℝ → ℝ → Prop) (hmid : ∀ a b c d, inside a b → inside c d → inside ((a + c) / 2) ((b + d) / 2))
    (o : FtOutline) (h : ∀ p ∈ o.points, inside ((p.1 : ℝ) / 64) ((p.2 : ℝ) / 64)) (path : Path) (hp : glyphOutlinePath o = .ok path) :
    ∀ c ∈ path, Within inside c := by
  unfold glyphOutlinePath at hp
  cases h1 : glyphContours o 0 o.contours with
  | error e => rw [h1] at hp; cases hp
  | ok cs =>
    rw [h1] at hp
    simp only [bind, Except.bind] at hp
    cases h2 : cs.mapM contourPath with
    | error e => rw [h2] at hp; cases hp
    | ok ps =>
      rw [h2] at hp
      cases hp
      have h3 := mapM_except_forall₂ _ _ _ h2
      have h4 := glyphContours_inside inside o h 0 _ cs h1
      intro c hc
      obtain ⟨p, hp, hc⟩ := List.mem_flatten.1 hc
      obtain ⟨d, hd, hpd⟩ := forall₂_right h3 p hp
      exact contourPath_inside inside hmid hpd (h4 d hd) c hc

/-! ## Which outlines are accepted -/

/-- The code finds a start point. -/
def HasStart (pts : List Pt) : Prop :=
  (∃ p r, pts = .on p :: r) ∨ ((∃ c r, pts = .conic c :: r) ∧ ¬ ∃ l d, pts = l ++ [.cubic d])

theorem contourPath_accepts (pts : List Pt) (hne : pts ≠ []) :
    (HasStart pts → ∃ path, contourPath (pts.map stored) = .ok path) ∧ (¬ HasStart pts → contourPath (pts.map stored) = .error .abort) := by
  obtain ⟨a, r, rfl⟩ := List.exists_cons_of_ne_nil hne
  obtain ⟨l, z, hz⟩ := (List.eq_nil_or_concat' (a :: r)).resolve_left (by simp)
  obtain ⟨m, hm⟩ := insertVirtual_head (stored a) (r.map stored)
  obtain ⟨k, hk⟩ := insertVirtual_last (l.map stored) (stored z)
  have hl : stored a :: m = k ++ [stored z] := by
    rw [← hk, ← hm]
    have := congrArg (List.map stored) hz
    simp only [List.map_cons, List.map_append, List.map_nil] at this
    rw [this]
  have hlast : (stored a :: m).getLast (by simp) = stored z := by
    simp only [hl, List.getLast_append, List.getLast_singleton]; simp
  have hstart : HasStart (a :: r) ↔ (∃ p, a = .on p) ∨ ((∃ c, a = .conic c) ∧ ∀ d, z ≠ .cubic d) := by
    unfold HasStart
    rw [hz]
    constructor
    · rintro (⟨p, r', h⟩ | ⟨⟨c, r', h⟩, h2⟩)
      · rw [← hz] at h; simp only [List.cons.injEq] at h; exact .inl ⟨p, h.1⟩
      · refine .inr ⟨⟨c, ?_⟩, fun d hd => h2 ⟨l, d, by rw [hd]⟩⟩
        rw [← hz] at h; simp only [List.cons.injEq] at h; exact h.1
    · rintro (⟨p, rfl⟩ | ⟨⟨c, rfl⟩, h2⟩)
      · exact .inl ⟨p, r, hz.symm⟩
      · refine .inr ⟨⟨c, r, hz.symm⟩, ?_⟩
        rintro ⟨l', d, h⟩
        have := (List.append_inj' h rfl).2
        simp only [List.cons.injEq, and_true] at this
        exact h2 d this
  rw [hstart]
  unfold contourPath
  rw [List.map_cons, hm]
  simp only [closeContour, startMiddle, startLast, List.head_cons, hlast]
  cases a with
  | on p => simp [stored]
  | cubic p => simp [stored]
  | conic p =>
    cases z <;> simp only [stored] at hlast ⊢ <;> simp [hlast]

/-- C100: a glyph is accepted exactly if each contour starts on the curve or with a conic control point and does not, in the
second case, end with a cubic one; otherwise the program is aborted by an assertion. -/
theorem C100_accepts (o : FtOutline) (contours : List (List RawPt)) (hs : Stores o contours) (hne : ∀ c ∈ contours, c ≠ [])
    (ptss : List (List Pt)) (hp : List.Forall₂ (List.Forall₂ IsPt) contours ptss) :
    ((∀ pts ∈ ptss, HasStart pts) → ∃ path, glyphOutlinePath o = .ok path) ∧
    ((¬ ∀ pts ∈ ptss, HasStart pts) → glyphOutlinePath o = .error .abort) := by
  obtain ⟨h1, h2, h3⟩ := hs
  have hc := glyphContours_ok o [] contours ptss hp hne (by simpa using h1) (by simpa using h2)
  simp only [List.length_nil] at hc
  have hne' : ∀ pts ∈ ptss, pts ≠ [] := by
    intro pts hpt
    obtain ⟨c, hc, h⟩ := forall₂_right hp pts hpt
    rintro rfl
    cases h
    exact hne [] hc rfl
  unfold glyphOutlinePath
  rw [h3, hc]
  simp only [bind, Except.bind]
  have key : ((∀ pts ∈ ptss, HasStart pts) → ∃ ps, (ptss.map (·.map stored)).mapM contourPath = .ok ps) ∧
      ((¬ ∀ pts ∈ ptss, HasStart pts) → (ptss.map (·.map stored)).mapM contourPath = .error .abort) := by
    clear hc hp h1 h2 h3 hne
    induction ptss with
    | nil => exact ⟨fun _ => ⟨[], rfl⟩, fun h => absurd (by simp) h⟩
    | cons pts ptss ih =>
      obtain ⟨a1, a2⟩ := contourPath_accepts pts (hne' pts (by simp))
      obtain ⟨i1, i2⟩ := ih (fun p hp => hne' p (by simp [hp]))
      simp only [List.map_cons, List.mapM_cons, List.mem_cons, forall_eq_or_imp]
      by_cases hh : HasStart pts
      · obtain ⟨path, hpath⟩ := a1 hh
        rw [hpath]
        simp only [hh, true_and, bind, Except.bind]
        constructor
        · intro h
          obtain ⟨ps, hps⟩ := i1 h
          exact ⟨path :: ps, by rw [hps]; rfl⟩
        · intro h
          rw [i2 h]
      · simp [hh, a2 hh, bind, Except.bind]
  constructor
  · intro h
    obtain ⟨ps, hps⟩ := key.1 h
    exact ⟨ps.flatten, by rw [hps]; rfl⟩
  · intro h
    rw [key.2 h]

/-- C100, violated by the code: a contour with a single cubic control point between two points is not reported, the rest of
the contour is dropped. -/
theorem C100_truncates (a b c : Vec2) (l : List Pt) :
    contourPath ((.on a :: .cubic b :: .on c :: l).map stored) = .ok [.moveTo a.x a.y, .close] ∧
      ¬ ∃ path, Contour (.on a :: .cubic b :: .on c :: l) path := by
  constructor
  · unfold contourPath
    simp only [List.map_cons, stored, insertVirtual_on, insertVirtual_off3]
    simp [closeContour, startMiddle, startLast, glyphSegments]
  · rintro ⟨path, h⟩
    generalize hx : Pt.on a :: .cubic b :: .on c :: l = x at h
    cases h with
    | first p r s h =>
      simp only [List.cons.injEq] at hx
      obtain ⟨-, rfl⟩ := hx
      cases h
    | last => simp at hx
    | between => simp at hx

/-- A contour of four conic points and no other: a circle, as TrueType fonts have it. -/
example (t : ℕ) (ht : t % 4 = 0) : glyphOutlinePath ⟨[(0, 64), (64, 0), (0, -64), (-64, 0)], [t, t, t, t], [3]⟩ =
    .ok [.moveTo (-1 / 2) (1 / 2), .quadTo 0 1 (1 / 2) (1 / 2), .quadTo 1 0 (1 / 2) (-1 / 2), .quadTo 0 (-1) (-1 / 2) (-1 / 2),
      .quadTo (-1) 0 (-1 / 2) (1 / 2), .close] := by
  have := C100_outline ⟨[(0, 64), (64, 0), (0, -64), (-64, 0)], [t, t, t, t], [3]⟩
    [[⟨0, 64, t⟩, ⟨64, 0, t⟩, ⟨0, -64, t⟩, ⟨-64, 0, t⟩]] ⟨rfl, rfl, rfl⟩
    [[.conic ⟨0, 1⟩, .conic ⟨1, 0⟩, .conic ⟨0, -1⟩, .conic ⟨-1, 0⟩]]
    [[.moveTo (-1 / 2) (1 / 2), .quadTo 0 1 (1 / 2) (1 / 2), .quadTo 1 0 (1 / 2) (-1 / 2), .quadTo 0 (-1) (-1 / 2) (-1 / 2),
      .quadTo (-1) 0 (-1 / 2) (1 / 2), .close]] ?_ ?_
  · simpa using this
  · refine .cons (.cons ?_ (.cons ?_ (.cons ?_ (.cons ?_ .nil)))) .nil <;> exact .inr (.inl ⟨ht, by norm_num⟩)
  · refine .cons ?_ .nil
    have h := Contour.between ⟨0, 1⟩ ⟨-1, 0⟩ [.conic ⟨1, 0⟩, .conic ⟨0, -1⟩, .conic ⟨-1, 0⟩]
      [.conic ⟨0, 1⟩, .conic ⟨1, 0⟩, .conic ⟨0, -1⟩] _ rfl
      (.implied _ _ _ _ _ (.implied _ _ _ _ _ (.implied _ _ _ _ _ (.quad _ _ _ _ _ (.done _)))))
    simp only [middle, List.cons_append, List.nil_append] at h
    norm_num at h ⊢
    exact h

end
end Clip
