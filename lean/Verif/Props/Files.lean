import Verif.Spec.Files
import Mathlib.Tactic.Cases
import Mathlib.Data.List.Infix
/-!
# C110: directories
-/
set_option linter.unusedSimpArgs false
namespace Clip
open Files
namespace Files

theorem OnlyMade.refl (p : Place) (t : Tree) : OnlyMade p t t := fun _ => .inl rfl

theorem OnlyMade.trans {p : Place} {t t' t'' : Tree} (h : OnlyMade p t t') (k : OnlyMade p t' t'') : OnlyMade p t t'' := by
  intro q
  rcases k q with e | ⟨e1, e2, e3⟩
  · rw [e]; exact h q
  · rcases h q with f | ⟨f1, f2, f3⟩
    · exact .inr ⟨by rw [← f, e1], e2, e3⟩
    · rw [e1] at f2; cases f2

theorem OnlyMade.mono {p p' : Place} {t t' : Tree} (h : OnlyMade p t t') (hp : p <+: p') : OnlyMade p' t t' := fun q =>
  (h q).imp_right fun ⟨a, b, c⟩ => ⟨a, b, c.trans hp⟩

theorem ancestor {t : Tree} (h : IsTree t) (q r : Place) (k : Kind) (hr : r ≠ []) (he : t (q ++ r) = some k) :
    t q = some .dir := by
  induction r using List.reverseRecOn generalizing k with
  | nil => exact absurd rfl hr
  | append_singleton r n ih =>
    rw [← List.append_assoc] at he
    have := h.2 _ _ _ he
    by_cases hr : r = []
    · subst hr; simpa using this
    · exact ih _ hr this

theorem walk_ok {t : Tree} (h : IsTree t) (a ns : Place) (k : Kind) : walk t a ns = .ok k ↔ t (a ++ ns) = some k := by
  induction ns generalizing a with
  | nil =>
    simp only [walk, List.append_nil]
    cases t a <;> simp
  | cons n ns ih =>
    simp only [walk]
    have : a ++ n :: ns = (a ++ [n]) ++ ns := by simp
    rcases ht : t a with _ | _ | _
    · simp only [reduceCtorEq, false_iff]
      intro e
      rw [ancestor h a (n :: ns) k (by simp) e] at ht; cases ht
    · rw [ih, this]
    · simp only [reduceCtorEq, false_iff]
      intro e
      rw [ancestor h a (n :: ns) k (by simp) e] at ht; cases ht

theorem walk_notdir {t : Tree} (a ns : Place) (hf : ∀ q, q <+: ns → t (a ++ q) ≠ some .file) :
    walk t a ns = .ok .dir ∨ walk t a ns = .error .noent := by
  induction ns generalizing a with
  | nil =>
    have := hf [] List.prefix_rfl
    simp only [List.append_nil] at this
    simp only [walk]
    rcases ht : t a with _ | _ | _
    · exact .inr rfl
    · exact .inl rfl
    · exact absurd ht this
  | cons n ns ih =>
    have h0 := hf [] (List.nil_prefix)
    simp only [List.append_nil] at h0
    simp only [walk]
    rcases ht : t a with _ | _ | _
    · exact .inr rfl
    · refine ih (a ++ [n]) ?_
      intro q hq
      have := hf (n :: q) (by simpa using hq)
      simpa using this
    · exact absurd ht h0

theorem walk_file {t : Tree} (h : IsTree t) (a ns q : Place) (hq : q <+: ns) (hne : q ≠ ns) (hf : t (a ++ q) = some .file) :
    walk t a ns = .error .notdir := by
  induction ns generalizing a q with
  | nil => exact absurd (List.prefix_nil.1 hq) hne
  | cons n ns ih =>
    simp only [walk]
    cases q with
    | nil =>
      simp only [List.append_nil] at hf
      rw [hf]
    | cons m q =>
      obtain ⟨rfl, hq'⟩ := List.cons_prefix_cons.1 hq
      rw [ancestor h a (m :: q) _ (by simp) hf]
      simp only
      exact ih (a ++ [m]) q hq' (fun e => hne (by rw [e])) (by simpa using hf)

theorem names_slash (a s r : Str) : namesFrom a (s ++ '/' :: r) = namesFrom a s ++ namesFrom [] r := by
  induction s generalizing a with
  | nil => simp [namesFrom]
  | cons c s ih =>
    simp only [List.cons_append, namesFrom]
    split
    · rw [ih, List.append_assoc]
    · exact ih _

theorem names_end_slash (s : Str) : namesFrom [] (s ++ ['/']) = namesFrom [] s := by
  rw [names_slash]; simp [namesFrom]

theorem names_word (a w : Str) (hw : '/' ∉ w) : namesFrom a w = if a ++ w = [] then [] else [a ++ w] := by
  induction w generalizing a with
  | nil => simp [namesFrom]
  | cons c w ih =>
    simp only [List.mem_cons, not_or] at hw
    simp only [namesFrom]
    rw [if_neg (Ne.symm hw.1), ih _ hw.2]
    simp

/-- Text that ends where a name can begin. -/
def AtName (pre : Str) : Prop := pre = [] ∨ ∃ s, pre = s ++ ['/']

theorem names_pre {pre : Str} (h : AtName pre) (r : Str) : namesFrom [] (pre ++ r) = namesFrom [] pre ++ namesFrom [] r := by
  rcases h with rfl | ⟨s, rfl⟩
  · simp [namesFrom]
  · rw [List.append_assoc, List.singleton_append, names_slash, names_end_slash]

theorem sysMkdir_ok {S : System} {t t' : Tree} {p : Str} (h : IsTree t) (hm : S.sysMkdir t p = .ok t') :
    IsTree t' ∧ OnlyMade (S.place p) t t' ∧ t' (S.place p) = some .dir ∧ t (S.place p) = none := by
  unfold System.sysMkdir at hm
  split at hm
  · cases hm
  · rcases hw : walk t [] (S.place p) with e | k
    · rw [hw] at hm
      cases e with
      | noent =>
        simp only at hm
        rcases hd : walk t [] (S.place p).dropLast with e | k
        · rw [hd] at hm; cases hm
        · rw [hd] at hm
          cases k with
          | file => cases hm
          | dir =>
            simp only at hm
            split at hm
            · cases hm
            · cases hm
              have hnone : t (S.place p) = none := by
                cases hx : t (S.place p) with
                | none => rfl
                | some k => rw [(walk_ok h [] _ k).2 (by simpa using hx)] at hw; cases hw
              have hpar : t (S.place p).dropLast = some .dir := by
                simpa using (walk_ok h [] _ .dir).1 hd
              have hne : S.place p ≠ [] := by
                intro e0; rw [e0, h.1] at hnone; cases hnone
              refine ⟨⟨?_, ?_⟩, ?_, by simp, hnone⟩
              · simp only; rw [if_neg (Ne.symm hne)]; exact h.1
              · intro q n k hk
                simp only at hk ⊢
                split at hk
                · rename_i e
                  rw [← e, List.dropLast_concat] at hpar
                  rw [if_neg, hpar]
                  intro e'
                  rw [← e] at e'
                  simp at e'
                · have := h.2 _ _ _ hk
                  split
                  · rfl
                  · exact this
              · intro q
                simp only
                by_cases hq : q = S.place p
                · subst hq; exact .inr ⟨hnone, by simp, List.prefix_rfl⟩
                · left; rw [if_neg hq]
      | notdir => cases hm
      | exist => cases hm
      | other => cases hm
    · rw [hw] at hm; cases hm

theorem mkdir_safe {S : System} {t t' : Tree} {b : Bool} {p : Str} (h : IsTree t) (hm : S.mkdir t p = (t', b)) :
    IsTree t' ∧ OnlyMade (S.place p) t t' ∧ (b = true → t' (S.place p) = some .dir) := by
  unfold System.mkdir at hm
  rcases hx : S.sysMkdir t p with e | t₁
  · rw [hx] at hm; cases hm
    exact ⟨h, .refl _ _, by simp⟩
  · rw [hx] at hm; cases hm
    obtain ⟨h1, h2, h3, -⟩ := sysMkdir_ok h hx
    exact ⟨h1, h2, fun _ => h3⟩

theorem exists_dir {S : System} {t : Tree} {p : Str} (h : IsTree t) (hd : S.isDirectory t p = some true) :
    t (S.place p) = some .dir := by
  unfold System.isDirectory System.stat at hd
  split at hd
  · rename_i k hk
    split at hk
    · cases hk
    · have hkd : k = .dir := by simpa using hd
      subst hkd
      split at hk
      · split at hk <;> cases hk
      · rename_i hk'
        simpa using (walk_ok h [] _ .dir).1 hk
  · cases hd

theorem stop_safe {S : System} {t t' : Tree} {b : Bool} {p : Str} (h : IsTree t) (hm : S.mkdirStop t p = (t', b)) :
    IsTree t' ∧ OnlyMade (S.place p) t t' ∧ (b = true → t' (S.place p) = some .dir) := by
  unfold System.mkdirStop at hm
  split at hm
  · cases hm; exact ⟨h, .refl _ _, by simp⟩
  · split at hm
    · rename_i hd
      cases hm; exact ⟨h, .refl _ _, fun _ => exists_dir h hd⟩
    · cases hm; exact ⟨h, .refl _ _, by simp⟩
  · exact mkdir_safe h hm

theorem stops_safe {S : System} (p : Place) (ps : List Str) (hp : ∀ s ∈ ps, S.place s <+: p) {t t' : Tree} {b : Bool}
    (h : IsTree t) (hm : S.mkdirStops ps t = (t', b)) : IsTree t' ∧ OnlyMade p t t' := by
  induction ps generalizing t with
  | nil => cases hm; exact ⟨h, .refl _ _⟩
  | cons s ps ih =>
    unfold System.mkdirStops at hm
    rcases hx : S.mkdirStop t s with ⟨t₁, b₁⟩
    rw [hx] at hm
    obtain ⟨h1, h2, -⟩ := stop_safe h hx
    have h2 := h2.mono (hp s (by simp))
    cases b₁ with
    | false => cases hm; exact ⟨h1, h2⟩
    | true =>
      obtain ⟨h3, h4⟩ := ih (fun s hs => hp s (List.mem_cons_of_mem _ hs)) h1 hm
      exact ⟨h3, h2.trans h4⟩

theorem stops_mem (pre post s : Str) (h : s ∈ stops pre post) : ∃ r, pre ++ post = s ++ '/' :: r ∧ pre <+: s ∧
    (pre = [] → post.head? ≠ some '/' → s ≠ []) := by
  induction post generalizing pre with
  | nil => simp [stops] at h
  | cons c r ih =>
    simp only [stops] at h
    split at h
    · rename_i hc
      rcases List.mem_cons.1 h with rfl | h
      · exact ⟨r, by simp [hc], List.prefix_rfl, fun h1 h2 => by simp [hc] at h2⟩
      · obtain ⟨r', h1, h2, -⟩ := ih _ h
        refine ⟨r', by simpa using h1, (List.prefix_append _ _).trans h2, fun h3 h4 => by simp [hc] at h4⟩
    · obtain ⟨r', h1, h2, -⟩ := ih _ h
      refine ⟨r', by simpa using h1, (List.prefix_append _ _).trans h2, ?_⟩
      rintro rfl -
      rintro rfl
      simpa using h2.length_le

theorem stops_place (S : System) (p : Str) :
    ∀ s ∈ stops (p.takeWhile (· == '/')) (p.dropWhile (· == '/')), s ≠ [] ∧ S.place s <+: S.place p := by
  intro s hs
  obtain ⟨r, h1, h2, h3⟩ := stops_mem _ _ _ hs
  rw [List.takeWhile_append_dropWhile] at h1
  have hne : s ≠ [] := by
    by_cases ht : p.takeWhile (· == '/') = []
    · refine h3 ht ?_
      have := List.head?_dropWhile_not (· == '/') p
      intro e
      rw [e] at this
      simp at this
    · rintro rfl
      exact ht (List.prefix_nil.1 h2)
  refine ⟨hne, ?_⟩
  unfold System.place
  have hh : p.head? = s.head? := by
    rw [h1]; cases s with
    | nil => exact absurd rfl hne
    | cons c s => rfl
  rw [hh, h1, names_slash, ← List.append_assoc]
  exact List.prefix_append _ _

/-- No place on the way to `p` is a file. -/
def NoFile (t : Tree) (p : Place) : Prop := ∀ q, q <+: p → t q ≠ some .file

theorem noFile_made {t t' : Tree} {p p' : Place} (h : NoFile t p) (k : OnlyMade p' t t') : NoFile t' p := by
  intro q hq e
  rcases k q with f | ⟨-, f, -⟩
  · rw [f] at e; exact h q hq e
  · rw [f] at e; cases e

theorem walk_of {t : Tree} (ht : IsTree t) {p : Place} (hf : NoFile t p) :
    (t p = some .dir ∧ walk t [] p = .ok .dir) ∨ (t p = none ∧ walk t [] p = .error .noent) := by
  rcases walk_notdir [] p (fun q hq => by simpa using hf q hq) with h | h
  · exact .inl ⟨by simpa using (walk_ok ht [] p .dir).1 h, h⟩
  · refine .inr ⟨?_, h⟩
    cases hx : t p with
    | none => rfl
    | some k => rw [(walk_ok ht [] p k).2 (by simpa using hx)] at h; cases h

theorem stat_of {S : System} {t : Tree} (ht : IsTree t) {p : Str} (hp : p ≠ []) (hf : NoFile t (S.place p)) :
    (t (S.place p) = some .dir ∧ S.stat t p = .ok .dir) ∨ (t (S.place p) = none ∧ S.stat t p = .error .noent) := by
  unfold System.stat
  rw [if_neg hp]
  rcases walk_of ht hf with ⟨h1, h2⟩ | ⟨h1, h2⟩
  · exact .inl ⟨h1, by rw [h2]⟩
  · exact .inr ⟨h1, by rw [h2]⟩

theorem mkdir_of {S : System} {t : Tree} (ht : IsTree t) {p : Str} (hp : p ≠ []) (hden : S.denied (S.place p) = false)
    (hf : NoFile t (S.place p)) (hn : t (S.place p) = none) (hd : t (S.place p).dropLast = some .dir) :
    ∃ t', S.mkdir t p = (t', true) := by
  unfold System.mkdir System.sysMkdir
  rw [if_neg hp]
  rcases walk_of ht hf with ⟨h1, h2⟩ | ⟨h1, h2⟩
  · rw [hn] at h1; cases h1
  · rw [h2, (walk_ok ht [] _ .dir).2 (by simpa using hd)]
    simp only [hden, Bool.false_eq_true, if_false]
    exact ⟨_, rfl⟩

/-- The loop, from a place where a name begins. -/
theorem stops_run {S : System} (base : Place) (full : Str) (hbase : base = if full.head? = some '/' then [] else S.cwd)
    (hden : ∀ q, S.denied q = false) (post : Str) : ∀ (pre w : Str) (t : Tree), full = pre ++ w ++ post → AtName pre → '/' ∉ w →
      (pre ++ w = [] → post.head? ≠ some '/') → IsTree t → t (base ++ namesFrom [] pre) = some .dir →
      NoFile t (base ++ namesFrom [] full) →
      ∃ pre' w' t', full = pre' ++ w' ∧ AtName pre' ∧ '/' ∉ w' ∧ S.mkdirStops (stops (pre ++ w) post) t = (t', true) ∧
        IsTree t' ∧ t' (base ++ namesFrom [] pre') = some .dir ∧ OnlyMade (base ++ namesFrom [] pre') t t' := by
  induction post with
  | nil =>
    intro pre w t hfull hpre hw _ ht hd _
    exact ⟨pre, w, t, by simpa using hfull, hpre, hw, rfl, ht, hd, .refl _ _⟩
  | cons c r ih =>
    intro pre w t hfull hpre hw hne ht hd hf
    simp only [stops]
    by_cases hc : c = '/'
    · subst hc
      rw [if_pos rfl]
      have hne' : pre ++ w ≠ [] := fun e => hne e rfl
      have hplace : S.place (pre ++ w) = base ++ namesFrom [] (pre ++ w) := by
        unfold System.place
        rw [hbase, hfull]
        congr 2
        cases hx : pre ++ w with
        | nil => exact absurd hx hne'
        | cons a b => simp
      have hnames : namesFrom [] full = namesFrom [] (pre ++ w) ++ namesFrom [] r := by
        rw [hfull, names_slash]
      have hf' : NoFile t (S.place (pre ++ w)) := by
        intro q hq
        refine hf q (hq.trans ?_)
        rw [hplace, hnames, ← List.append_assoc]
        exact List.prefix_append _ _
      have hstep : ∃ t₁, S.mkdirStop t (pre ++ w) = (t₁, true) := by
        unfold System.mkdirStop System.exists_ System.isDirectory
        rcases stat_of ht hne' hf' with ⟨h1, h2⟩ | ⟨h1, h2⟩
        · exact ⟨t, by simp [h2]⟩
        · rw [h2]
          refine mkdir_of ht hne' (hden _) hf' h1 ?_
          rw [hplace, names_pre hpre, names_word [] w hw]
          rw [hplace, names_pre hpre, names_word [] w hw] at h1
          by_cases hw0 : w = []
          · subst hw0
            simp only [List.append_nil, if_true] at h1
            rw [hd] at h1; cases h1
          · rw [if_neg (by simpa using hw0)]
            rw [← List.append_assoc, List.nil_append, List.dropLast_concat]
            exact hd
      obtain ⟨t₁, hs⟩ := hstep
      obtain ⟨k1, k2, k3⟩ := stop_safe ht hs
      rw [hplace] at k2
      have e1 : namesFrom [] (pre ++ w ++ ['/']) = namesFrom [] (pre ++ w) := names_end_slash _
      obtain ⟨pre', w', t', q1, q2, q3, q4, q5, q6, q7⟩ := ih (pre ++ w ++ ['/']) [] t₁ (by simpa using hfull) (.inr ⟨_, rfl⟩)
        (by simp) (by simp) k1 (by rw [e1, ← hplace]; exact k3 rfl) (noFile_made hf k2)
      refine ⟨pre', w', t', q1, q2, q3, ?_, q5, q6, ?_⟩
      · simp only [System.mkdirStops, hs]
        simpa using q4
      · refine (k2.mono ?_).trans q7
        have hl : base ++ namesFrom [] (pre ++ w) <+: base ++ namesFrom [] full := by
          rw [hnames, ← List.append_assoc]; exact List.prefix_append _ _
        have hl2 : base ++ namesFrom [] pre' <+: base ++ namesFrom [] full := by
          rw [q1, names_pre q2, ← List.append_assoc]; exact List.prefix_append _ _
        refine List.prefix_of_prefix_length_le hl hl2 ?_
        -- the text up to the last slash is at least as long
        have h3 := congrArg List.length hnames
        have h4 : namesFrom [] full = namesFrom [] pre' ++ namesFrom [] w' := by rw [q1, names_pre q2]
        obtain ⟨z, hz⟩ : ∃ z, pre' = (pre ++ w ++ ['/']) ++ z := by
          have p1 : pre ++ w ++ ['/'] <+: full := ⟨r, by simpa using hfull.symm⟩
          have p2 : pre' <+: full := ⟨w', q1.symm⟩
          rcases List.prefix_or_prefix_of_prefix p1 p2 with ⟨z, hz⟩ | ⟨z, hz⟩
          · exact ⟨z, hz.symm⟩
          · -- then the slash would be in the last name
            by_cases hz0 : z = []
            · exact ⟨[], by simpa [hz0] using hz⟩
            · exfalso
              have hm : '/' ∈ z := by
                have : (pre' ++ z).getLast? = some '/' := by rw [hz]; simp
                rw [List.getLast?_append_of_ne_nil _ hz0] at this
                exact List.mem_of_getLast? this
              have : full = pre' ++ (z ++ r) := by rw [← List.append_assoc, hz]; simpa using hfull
              rw [q1] at this
              have := List.append_cancel_left this
              exact q3 (this ▸ List.mem_append_left _ hm)
        rw [hz, names_pre (.inr ⟨pre ++ w, rfl⟩), e1]
        simp
    · rw [if_neg hc]
      have := ih pre (w ++ [c]) t (by simpa using hfull) hpre (by simp [hw, Ne.symm hc]) (by simp) ht hd hf
      simpa using this

theorem start_run {S : System} (hden : ∀ q, S.denied q = false) (p : Str) (t : Tree) (ht : IsTree t)
    (hcwd : t S.cwd = some .dir) (hf : NoFile t (S.place p)) :
    ∃ pre w t', p = pre ++ w ∧ AtName pre ∧ '/' ∉ w ∧
      S.mkdirStops (stops (p.takeWhile (· == '/')) (p.dropWhile (· == '/'))) t = (t', true) ∧ IsTree t' ∧
      t' ((if p.head? = some '/' then [] else S.cwd) ++ namesFrom [] pre) = some .dir ∧
      OnlyMade ((if p.head? = some '/' then [] else S.cwd) ++ namesFrom [] pre) t t' := by
  have hsl : ∀ l : Str, (∀ c ∈ l, c = '/') → AtName l ∧ namesFrom [] l = [] := by
    intro l hl
    induction l using List.reverseRecOn with
    | nil => exact ⟨.inl rfl, rfl⟩
    | append_singleton l c ih =>
      obtain rfl := hl c (by simp)
      exact ⟨.inr ⟨l, rfl⟩, by rw [names_end_slash]; exact (ih fun c hc => hl c (by simp [hc])).2⟩
  obtain ⟨a1, a2⟩ := hsl (p.takeWhile (· == '/')) (fun c hc => by
    have := List.all_takeWhile (p := (· == '/')) (l := p)
    simpa using List.all_eq_true.1 this c hc)
  obtain ⟨pre, w, t', h1, h2, h3, h4, h5⟩ := stops_run _ p rfl hden (p.dropWhile (· == '/')) (p.takeWhile (· == '/')) [] t
    (by rw [List.append_nil, List.takeWhile_append_dropWhile]) a1 (by simp) (by
      intro _ e
      have := List.head?_dropWhile_not (· == '/') p
      rw [e] at this
      simp at this) ht (by
      rw [a2, List.append_nil]
      split
      · exact ht.1
      · exact hcwd) hf
  exact ⟨pre, w, t', h1, h2, h3, by simpa using h4, h5⟩

end Files

/-- C110: whatever happens, making a directory together with those it is in only adds directories on the way to it: nothing
else is changed, and what is there remains a tree.  If it succeeds the directory is there. -/
theorem C110_safe (S : System) (t t' : Tree) (p : Str) (ok : Bool) (h : IsTree t) (hm : S.mkdirP t p = (t', ok)) :
    IsTree t' ∧ OnlyMade (S.place p) t t' ∧ (ok = true → t' (S.place p) = some .dir) := by
  unfold System.mkdirP at hm
  split at hm
  · cases hm; exact ⟨h, .refl _ _, by simp⟩
  · split at hm
    · rename_i hd
      cases hm; exact ⟨h, .refl _ _, fun _ => exists_dir h hd⟩
    · cases hm; exact ⟨h, .refl _ _, by simp⟩
  · rcases hx : S.mkdirStops (stops (p.takeWhile (· == '/')) (p.dropWhile (· == '/'))) t with ⟨t₁, b₁⟩
    rw [hx] at hm
    obtain ⟨h1, h2⟩ := stops_safe (S.place p) _ (fun s hs => (stops_place S p s hs).2) h hx
    cases b₁ with
    | false => cases hm; exact ⟨h1, h2, by simp⟩
    | true =>
      obtain ⟨h3, h4, h5⟩ := mkdir_safe h1 hm
      exact ⟨h3, h2.trans h4, h5⟩

/-- C110: if the system allows it, making a directory together with those it is in succeeds exactly if nothing on the way to
it is a file.  (Not for paths that end in a slash, see `C110_trailing_slash`.) -/
theorem C110_succeeds_partial (S : System) (t : Tree) (p : Str) (h : IsTree t) (hcwd : t S.cwd = some .dir)
    (hden : ∀ q, S.denied q = false) (hp : p ≠ []) (hs : p.getLast? ≠ some '/') :
    (∃ t', S.mkdirP t p = (t', true)) ↔ ∀ q, q <+: S.place p → t q ≠ some .file := by
  constructor
  · rintro ⟨t', hm⟩ q hq e
    obtain ⟨h1, h2, h3⟩ := C110_safe S t t' p true h hm
    have hd := h3 rfl
    have e' : t' q = some .file := by
      rcases h2 q with f | ⟨f, -, -⟩
      · rw [f, e]
      · rw [f] at e; cases e
    obtain ⟨r, hr⟩ := hq
    by_cases hr0 : r = []
    · rw [hr0, List.append_nil] at hr
      rw [hr, hd] at e'; cases e'
    · rw [← hr] at hd
      rw [ancestor h1 q r _ hr0 hd] at e'; cases e'
  · intro hf
    unfold System.mkdirP System.exists_ System.isDirectory
    rcases stat_of h hp hf with ⟨h1, h2⟩ | ⟨h1, h2⟩
    · exact ⟨t, by simp [h2]⟩
    · rw [h2]
      obtain ⟨pre, w, t', q1, q2, q3, q4, q5, q6, q7⟩ := start_run hden p t h hcwd hf
      simp only [q4]
      have hw : w ≠ [] := by
        rintro rfl
        rw [List.append_nil] at q1
        subst q1
        rcases q2 with rfl | ⟨s, rfl⟩
        · exact hp rfl
        · exact hs (by simp)
      have hpl : S.place p = ((if p.head? = some '/' then [] else S.cwd) ++ namesFrom [] pre) ++ [w] := by
        unfold System.place
        have : namesFrom [] p = namesFrom [] pre ++ [w] := by
          rw [q1, names_pre q2, names_word [] w q3, if_neg (by simpa using hw), List.nil_append]
        rw [this, List.append_assoc]
      refine mkdir_of q5 hp (hden _) (noFile_made hf q7) ?_ (by rw [hpl, List.dropLast_concat]; exact q6)
      rcases q7 (S.place p) with f | ⟨-, -, f⟩
      · rw [f, h1]
      · have := f.length_le
        rw [hpl] at this
        simp at this
        omega

/-- C110 (violated by the code): for a path that ends in a slash, a directory that does not exist is made, but it is
reported that this failed. -/
theorem C110_trailing_slash (S : System) (t : Tree) (s : Str) (h : IsTree t) (hcwd : t S.cwd = some .dir)
    (hden : ∀ q, S.denied q = false) (hn : t (S.place (s ++ ['/'])) = none)
    (hf : ∀ q, q <+: S.place (s ++ ['/']) → t q ≠ some .file) :
    ∃ t', S.mkdirP t (s ++ ['/']) = (t', false) ∧ t' (S.place (s ++ ['/'])) = some .dir := by
  have hp : s ++ ['/'] ≠ [] := by simp
  unfold System.mkdirP System.exists_ System.isDirectory
  rcases stat_of h hp hf with ⟨h1, h2⟩ | ⟨h1, h2⟩
  · rw [hn] at h1; cases h1
  · rw [h2]
    obtain ⟨pre, w, t', q1, q2, q3, q4, q5, q6, q7⟩ := start_run hden _ t h hcwd hf
    simp only [q4]
    have hw : w = [] := by
      by_contra hw
      have : (pre ++ w).getLast? = some '/' := by rw [← q1]; simp
      rw [List.getLast?_append_of_ne_nil _ hw] at this
      exact q3 (List.mem_of_getLast? this)
    subst hw
    rw [List.append_nil] at q1
    have hpl : t' (S.place (s ++ ['/'])) = some .dir := by
      unfold System.place
      rw [q1] at q6 ⊢
      exact q6
    refine ⟨t', ?_, hpl⟩
    unfold System.mkdir System.sysMkdir
    rw [if_neg hp, (walk_ok q5 [] _ .dir).2 (by simpa using hpl)]

/-- A file system with nothing in it but the root; the working directory is the root. -/
example : ∃ t', (System.mkdirP ⟨[], fun _ => false⟩ (fun q => if q = [] then some .dir else none) ['a', '/', 'b']) = (t', true) := by
  rw [C110_succeeds_partial]
  · intro q _; split <;> simp
  · exact ⟨by simp, fun q n k hk => by simp at hk⟩
  · simp
  · simp
  · simp
  · simp

/-- C110: `FileUtil::exists` says yes for what is there, raises an exception if the path goes through a file, and otherwise says
no. -/
theorem C110_exists (S : System) (t : Tree) (p : Str) (h : IsTree t) (hp : p ≠ []) (hs : p.getLast? ≠ some '/') :
    (S.exists_ t p = some true ↔ t (S.place p) ≠ none) ∧
    (S.exists_ t p = none ↔ ∃ q, q <+: S.place p ∧ q ≠ S.place p ∧ t q = some .file) := by
  have key : S.exists_ t p = (match walk t [] (S.place p) with | .ok _ => some true | .error .noent => some false | .error _ => none) := by
    unfold System.exists_ System.stat
    rw [if_neg hp]
    cases hw : walk t [] (S.place p) with
    | ok k => cases k <;> simp [hs]
    | error e => rfl
  have there : ∀ k, t (S.place p) = some k → S.exists_ t p = some true := by
    intro k hk
    rw [key, (walk_ok h [] (S.place p) k).2 (by simpa using hk)]
  have through : (∃ q, q <+: S.place p ∧ q ≠ S.place p ∧ t q = some .file) → S.exists_ t p = none := by
    rintro ⟨q, h1, h2, h3⟩
    rw [key, walk_file h [] (S.place p) q h1 h2 (by simpa using h3)]
  by_cases hq : ∃ q, q <+: S.place p ∧ q ≠ S.place p ∧ t q = some .file
  · have e := through hq
    refine ⟨?_, by simp [e, hq]⟩
    rw [e]
    constructor
    · intro h; cases h
    · intro hn
      obtain ⟨k, hk⟩ := Option.ne_none_iff_exists'.1 hn
      rw [there k hk] at e; cases e
  · cases ht : t (S.place p) with
    | some k => rw [there k ht]; simp; push Not at hq; exact hq
    | none =>
      have hf : NoFile t (S.place p) := by
        intro q h1 h2
        by_cases h3 : q = S.place p
        · rw [h3, ht] at h2; cases h2
        · exact hq ⟨q, h1, h3, h2⟩
      rcases walk_of h hf with ⟨h1, _⟩ | ⟨_, h2⟩
      · rw [ht] at h1; cases h1
      · rw [key, h2]; simp; push Not at hq; exact hq

/-- Below a file nothing exists and nothing can. -/
example : (System.exists_ ⟨[], fun _ => false⟩ (fun q => if q = [] then some .dir else if q = [['a']] then some .file else none)
    ['a', '/', 'b']) = none := by decide

end Clip
