import Verif.Model.Data
import Verif.Spec.Data
import Verif.Props.Csv
import Mathlib.Tactic.Push
import Mathlib.Tactic.ByContra
import Mathlib.Data.List.Nodup
set_option linter.unusedSimpArgs false
namespace Clip
open DataSpec
variable {ν : Type}

/-! ## series_group -/

/-- Invariant of the grouping loop after the first part `done` of the data. -/
structure GroupInv (done : List Str) (groups : List DataGroup) (map : Str → Nat) : Prop where
  idx : ∀ k, map k = 0 ∧ k ∉ done ∨ ∃ h : map k - 1 < groups.length, 0 < map k ∧ groups[map k - 1].key = k
  keys : (groups.map (·.key)).Nodup
  mem : ∀ k, k ∈ groups.map (·.key) ↔ k ∈ done
  index : ∀ g ∈ groups, g.index = (List.range done.length).filter fun i => done[i]? = some g.key
  order : groups.Pairwise fun g h => done.idxOf g.key < done.idxOf h.key

theorem modify_key (gs : List DataGroup) (n i : Nat) :
    (gs.modify n fun g => { g with index := g.index ++ [i] }).map (·.key) = gs.map (·.key) := by
  induction gs generalizing n with
  | nil => simp
  | cons g gs ih => cases n <;> simp [ih]

theorem range_filter_snoc (done : List Str) (v k : Str) :
    (List.range (done ++ [v]).length).filter (fun i => (done ++ [v])[i]? = some k) =
      (List.range done.length).filter (fun i => done[i]? = some k) ++ (if v = k then [done.length] else []) := by
  rw [List.length_append, List.length_singleton, List.range_succ, List.filter_append]
  congr 1
  · apply List.filter_congr
    intro i hi
    have : i < done.length := by simpa using hi
    rw [List.getElem?_append_left this]
  · simp [List.filter_cons]

theorem idxOf_snoc_mem {l : List Str} {k v : Str} (h : k ∈ l) : (l ++ [v]).idxOf k = l.idxOf k := by
  rw [List.idxOf_append, if_pos h]

theorem idxOf_snoc_notmem {l : List Str} {k : Str} (h : k ∉ l) : (l ++ [k]).idxOf k = l.length := by
  rw [List.idxOf_append, if_neg h]; simp

/-- Adding an element of an existing group. -/
theorem groupInv_old {done : List Str} {groups : List DataGroup} {map : Str → Nat}
    (h : GroupInv done groups map) (v : Str) (hv : map v ≠ 0) :
    GroupInv (done ++ [v]) (groups.modify (map v - 1) fun g => { g with index := g.index ++ [done.length] }) map := by
  have hm := modify_key groups (map v - 1) done.length
  obtain ⟨hlt, hpos, hkey⟩ : ∃ h : map v - 1 < groups.length, 0 < map v ∧ groups[map v - 1].key = v := by
    rcases h.idx v with h | h
    · exact absurd h.1 hv
    · exact h
  have hvd : v ∈ done := (h.mem v).1 (by rw [List.mem_map]; exact ⟨_, List.getElem_mem hlt, hkey⟩)
  refine ⟨?_, by rw [hm]; exact h.keys, ?_, ?_, ?_⟩
  · intro k
    rcases h.idx k with ⟨a, b⟩ | ⟨a, b, c⟩
    · left
      refine ⟨a, ?_⟩
      simp only [List.mem_append, List.mem_singleton, not_or]
      exact ⟨b, fun e => hv (e ▸ a)⟩
    · right
      refine ⟨by simpa using a, b, ?_⟩
      rw [List.getElem_modify]
      split <;> simpa using c
  · intro k
    rw [hm, h.mem k]
    simp only [List.mem_append, List.mem_singleton]
    constructor
    · exact .inl
    · rintro (h | rfl)
      · exact h
      · exact hvd
  · intro g hg
    obtain ⟨i, hi, rfl⟩ := List.getElem_of_mem hg
    rw [List.getElem_modify]
    have hi' : i < groups.length := by simpa using hi
    split
    · rename_i e
      subst e
      rw [range_filter_snoc, if_pos hkey.symm, h.index _ (List.getElem_mem hlt)]
    · rename_i e
      rw [range_filter_snoc, if_neg, List.append_nil, h.index _ (List.getElem_mem hi')]
      intro hk
      apply e
      have := (List.nodup_iff_injective_get).1 h.keys
      have := @this ⟨map v - 1, by simpa using hlt⟩ ⟨i, by simpa using hi'⟩ (by simp only [List.get_eq_getElem, List.getElem_map]; rw [hkey]; exact hk)
      simpa using this
  · have hp := h.order
    have hq : (groups.map (·.key)).Pairwise fun a b => done.idxOf a < done.idxOf b := List.pairwise_map.2 hp
    rw [← hm] at hq
    have := List.pairwise_map.1 hq
    refine this.imp_of_mem ?_
    intro a b ha hb hab
    have memk : ∀ g ∈ (groups.modify (map v - 1) fun g => { g with index := g.index ++ [done.length] }),
        g.key ∈ done := by
      intro g hg
      rw [← h.mem, ← hm, List.mem_map]
      exact ⟨g, hg, rfl⟩
    rw [idxOf_snoc_mem (memk a ha), idxOf_snoc_mem (memk b hb)]
    exact hab

/-- A new group is appended. -/
theorem groupInv_new {done : List Str} {groups : List DataGroup} {map : Str → Nat}
    (h : GroupInv done groups map) (v : Str) (hv : map v = 0) :
    GroupInv (done ++ [v]) (groups ++ [⟨v, [done.length]⟩])
      (fun k => if k = v then groups.length + 1 else map k) := by
  have hvd : v ∉ done := by
    rcases h.idx v with h | h
    · exact h.2
    · omega
  have hfresh : (List.range done.length).filter (fun i => done[i]? = some v) = [] := by
    rw [List.filter_eq_nil_iff]
    intro i _ hi
    simp only [decide_eq_true_eq] at hi
    exact hvd (List.mem_of_getElem? hi)
  refine ⟨?_, ?_, ?_, ?_, ?_⟩
  · intro k
    by_cases hk : k = v
    · subst hk
      right
      simp
    · rcases h.idx k with ⟨a, b⟩ | ⟨a, b, c⟩
      · left
        simp [hk, a, b]
      · right
        simp only [hk, if_false]
        refine ⟨by simp; omega, b, ?_⟩
        rw [List.getElem_append_left a]
        exact c
  · rw [List.map_append, List.map_singleton]
    refine List.nodup_append.2 ⟨h.keys, by simp, ?_⟩
    intro a ha b hb hab
    simp only [List.mem_singleton] at hb
    exact hvd ((h.mem v).1 (by rw [← hb, ← hab]; exact ha))
  · intro k
    rw [List.map_append, List.mem_append, h.mem k]
    simp
  · intro g hg
    rw [range_filter_snoc]
    rcases List.mem_append.1 hg with hg | hg
    · rw [if_neg, List.append_nil, h.index g hg]
      intro e
      exact hvd ((h.mem _).1 (List.mem_map.2 ⟨g, hg, e.symm⟩))
    · simp only [List.mem_singleton] at hg
      subst hg
      simp [hfresh]
  · rw [List.pairwise_append]
    refine ⟨?_, by simp, ?_⟩
    · refine h.order.imp_of_mem ?_
      intro a b ha hb hab
      rw [idxOf_snoc_mem ((h.mem _).1 (List.mem_map.2 ⟨a, ha, rfl⟩)),
        idxOf_snoc_mem ((h.mem _).1 (List.mem_map.2 ⟨b, hb, rfl⟩))]
      exact hab
    · intro a ha b hb
      simp only [List.mem_singleton] at hb
      subst hb
      have ha' := (h.mem _).1 (List.mem_map.2 ⟨a, ha, rfl⟩)
      rw [idxOf_snoc_mem ha', idxOf_snoc_notmem hvd]
      exact List.idxOf_lt_length_iff.2 ha'

theorem seriesGroup_inv (rest : List Str) : ∀ (done : List Str) (groups : List DataGroup) (map : Str → Nat),
    GroupInv done groups map → ∃ map', GroupInv (done ++ rest) (seriesGroupLoop rest done.length groups map) map' := by
  induction rest with
  | nil => intro done groups map h; exact ⟨map, by simpa [seriesGroupLoop] using h⟩
  | cons v rest ih =>
    intro done groups map h
    rw [seriesGroupLoop]
    by_cases hv : map v = 0
    · simp only [hv, if_true]
      have := groupInv_new h v hv
      obtain ⟨m, hm⟩ := ih _ _ _ this
      refine ⟨m, ?_⟩
      have e : (groups ++ [(⟨v, []⟩ : DataGroup)]).modify ((groups ++ [(⟨v, []⟩ : DataGroup)]).length - 1)
          (fun g => { g with index := g.index ++ [done.length] }) = groups ++ [⟨v, [done.length]⟩] := by
        rw [List.length_append, List.length_singleton, Nat.add_sub_cancel]
        clear hm ih this h
        induction groups with
        | nil => rfl
        | cons g gs ih => simpa using ih
      rw [e]
      simpa using hm
    · simp only [hv, if_false]
      obtain ⟨m, hm⟩ := ih _ _ _ (groupInv_old h v hv)
      exact ⟨m, by simpa using hm⟩

/-! ## Data buffers -/

def addValue (b : DataBuffer ν) : ν ⊕ Str → DataBuffer ν
  | .inl v => databufAddNum b v
  | .inr s => databufAddText b s

/-- A buffer holds a sequence of values. -/
def Holds (b : DataBuffer ν) (vs : List (ν ⊕ Str)) : Prop :=
  b.index.length = vs.length ∧ ∀ i (hi : i < vs.length) (hi' : i < b.index.length),
    match vs[i] with
    | .inl v => b.index[i].1 = true ∧ b.numeric[b.index[i].2]? = some v
    | .inr s => b.index[i].1 = false ∧ b.text[b.index[i].2]? = some s

theorem getElem?_append_some {α : Type} {l : List α} {i : Nat} {a b : α} (h : l[i]? = some a) :
    (l ++ [b])[i]? = some a := by
  rw [List.getElem?_append_left]
  · exact h
  · exact (List.getElem?_eq_some_iff.1 h).1

theorem holds_add {b : DataBuffer ν} {vs : List (ν ⊕ Str)} (h : Holds b vs) (v : ν ⊕ Str) :
    Holds (addValue b v) (vs ++ [v]) := by
  obtain ⟨hl, h⟩ := h
  constructor
  · cases v <;> simp [addValue, databufAddNum, databufAddText, hl]
  · intro i hi hi'
    by_cases hlt : i < vs.length
    · have hb : i < b.index.length := by omega
      rw [List.getElem_append_left hlt]
      have := h i hlt hb
      cases v with
      | inl v =>
        simp only [addValue, databufAddNum]
        rw [List.getElem_append_left hb]
        split <;> rename_i e <;> rw [e] at this
        · exact ⟨this.1, getElem?_append_some this.2⟩
        · exact this
      | inr s =>
        simp only [addValue, databufAddText]
        rw [List.getElem_append_left hb]
        split <;> rename_i e <;> rw [e] at this
        · exact this
        · exact ⟨this.1, getElem?_append_some this.2⟩
    · have : i = vs.length := by simp at hi; omega
      subst this
      cases v with
      | inl v => simp [addValue, databufAddNum, ← hl]
      | inr s => simp [addValue, databufAddText, ← hl]

theorem holds_adds (ops : List (ν ⊕ Str)) : ∀ {b : DataBuffer ν} {vs : List (ν ⊕ Str)}, Holds b vs →
    Holds (ops.foldl addValue b) (vs ++ ops) := by
  induction ops with
  | nil => intro b vs h; simpa using h
  | cons o ops ih =>
    intro b vs h
    have := ih (holds_add h o)
    simpa using this

theorem holds_empty : Holds ({} : DataBuffer ν) [] := by
  constructor
  · rfl
  · intro i hi; simp at hi

theorem mapM_of_getElem {α β : Type} (f : α → Option β) (l : List α) (r : List β) (hl : l.length = r.length)
    (h : ∀ i (hi : i < l.length) (hi' : i < r.length), f l[i] = some r[i]) : l.mapM f = some r := by
  induction l generalizing r with
  | nil => cases r with
    | nil => rfl
    | cons b bs => simp at hl
  | cons a as ih =>
    cases r with
    | nil => simp at hl
    | cons b bs =>
      have h0 := h 0 (by simp) (by simp)
      simp only [List.getElem_cons_zero] at h0
      have := ih bs (by simpa using hl) fun i hi hi' => by
        have := h (i + 1) (by simpa using hi) (by simpa using hi')
        simpa using this
      rw [List.mapM_cons, h0, this]
      rfl

theorem holds_text {b : DataBuffer ν} {vs : List (ν ⊕ Str)} (h : Holds b vs) (ts : ν → Str) :
    databufToText ts b = some (vs.map fun | .inl v => ts v | .inr s => s) := by
  obtain ⟨hl, h⟩ := h
  apply mapM_of_getElem
  · simpa using hl
  · intro i hi hi'
    have hv : i < vs.length := by simpa using hi'
    have := h i hv hi
    rw [List.getElem_map]
    split at this <;> rename_i e
    · simp [this.1, this.2, e]
    · simp [this.1, this.2, e]

theorem holds_numbers {b : DataBuffer ν} {vs : List (ν ⊕ Str)} (h : Holds b vs) (p : Str → ν) :
    databufToNumbers p b = some (vs.map fun | .inl v => v | .inr s => p s) := by
  obtain ⟨hl, h⟩ := h
  apply mapM_of_getElem
  · simpa using hl
  · intro i hi hi'
    have hv : i < vs.length := by simpa using hi'
    have := h i hv hi
    rw [List.getElem_map]
    split at this <;> rename_i e
    · simp [this.1, this.2, e]
    · simp [this.1, this.2, e]

theorem holds_texts {b : DataBuffer ν} {vs : List (ν ⊕ Str)} (h : Holds b vs) (ts : List Str) :
    Holds (databufAddTexts b ts) (vs ++ ts.map .inr) := by
  have := holds_adds (ts.map .inr) h
  rwa [List.foldl_map] at this

/-! ## Polylines -/

theorem pieces_snoc {α : Type} (cuts : List Nat) (l v : List α) (h : ∀ c ∈ cuts, c ≤ l.length) :
    pieces (cuts ++ [l.length]) (l ++ v) = pieces cuts l ++ [v] := by
  unfold pieces
  rw [show (0 :: (cuts ++ [l.length])) = (0 :: cuts) ++ [l.length] by simp]
  rw [List.zipWith_append (by simp)]
  congr 1
  · apply List.ext_getElem
    · simp
    · intro i h1 h2
      simp only [List.getElem_zipWith]
      congr 1
      rw [List.take_append_of_le_length]
      have : (cuts ++ [l.length])[i]'(by simp at h2 ⊢; omega) ∈ cuts ++ [l.length] := List.getElem_mem _
      rcases List.mem_append.1 this with h' | h'
      · exact h _ h'
      · simp only [List.mem_singleton] at h'
        omega
  · rw [List.zipWith_cons_cons, List.take_length]
    simp

/-- The state after loading some polylines. -/
structure LinesInv (st : DataBuffer ν × DataBuffer ν × List Nat) (ls : List (List (ν × ν))) : Prop where
  x : Holds st.1 (ls.flatten.map fun v => .inl v.1)
  y : Holds st.2.1 (ls.flatten.map fun v => .inl v.2)
  cuts : ∀ c ∈ st.2.2, c ≤ ls.flatten.length
  empty : ls.flatten = [] → st.2.2 = []
  pieces : ls.flatten ≠ [] → pieces st.2.2 ls.flatten = ls.dropWhile List.isEmpty

theorem onLine_vertices (vs : List (ν × ν)) : ∀ (x y : DataBuffer ν) (g : List Nat) (a b : List (ν ⊕ Str)),
    Holds x a → Holds y b →
    ∃ x' y', vs.foldl (fun s v => (databufAddNum s.1 v.1, databufAddNum s.2.1 v.2, s.2.2)) (x, y, g) = (x', y', g) ∧
      Holds x' (a ++ vs.map fun v => .inl v.1) ∧ Holds y' (b ++ vs.map fun v => .inl v.2) := by
  induction vs with
  | nil => intro x y g a b hx hy; exact ⟨x, y, rfl, by simpa using hx, by simpa using hy⟩
  | cons v vs ih =>
    intro x y g a b hx hy
    obtain ⟨x', y', h, h1, h2⟩ := ih (databufAddNum x v.1) (databufAddNum y v.2) g _ _
      (holds_add hx (.inl v.1)) (holds_add hy (.inl v.2))
    exact ⟨x', y', by simpa using h, by simpa using h1, by simpa using h2⟩

theorem dropWhile_snoc {α : Type} (p : α → Bool) (l : List α) (a : α) (h : ∃ x ∈ l, p x = false) :
    (l ++ [a]).dropWhile p = l.dropWhile p ++ [a] := by
  induction l with
  | nil => simp at h
  | cons b l ih =>
    simp only [List.cons_append, List.dropWhile_cons]
    split
    · rename_i hb
      apply ih
      obtain ⟨x, hx, hp⟩ := h
      rcases List.mem_cons.1 hx with rfl | hx
      · simp [hb] at hp
      · exact ⟨x, hx, hp⟩
    · rfl

theorem onLine_inv {st : DataBuffer ν × DataBuffer ν × List Nat} {ls : List (List (ν × ν))} (h : LinesInv st ls)
    (vs : List (ν × ν)) : LinesInv (onLine st vs) (ls ++ [vs]) := by
  have hlx : databufLen st.1 = ls.flatten.length := by rw [databufLen, h.x.1, List.length_map]
  have hly : databufLen st.2.1 = ls.flatten.length := by rw [databufLen, h.y.1, List.length_map]
  unfold onLine
  simp only [hlx, hly, Nat.min_self]
  obtain ⟨x', y', e, hx, hy⟩ := onLine_vertices vs st.1 st.2.1
    (if ls.flatten.length > 0 then st.2.2 ++ [ls.flatten.length] else st.2.2) _ _ h.x h.y
  rw [e]
  have hfl : (ls ++ [vs]).flatten = ls.flatten ++ vs := by simp
  refine ⟨by simpa [hfl] using hx, by simpa [hfl] using hy, ?_, ?_, ?_⟩
  · intro c hc
    rw [hfl, List.length_append]
    simp only at hc
    split at hc
    · rcases List.mem_append.1 hc with hc | hc
      · have := h.cuts c hc; omega
      · simp only [List.mem_singleton] at hc; omega
    · have := h.cuts c hc; omega
  · intro he
    rw [hfl] at he
    have he := List.append_eq_nil_iff.1 he
    simp only [he.1, List.length_nil, gt_iff_lt, Nat.lt_irrefl, if_false]
    exact h.empty he.1
  · intro hne
    rw [hfl]
    by_cases hz : ls.flatten = []
    · have hv : vs ≠ [] := by
        rw [hfl, hz] at hne; simpa using hne
      simp only [hz, List.length_nil, gt_iff_lt, Nat.lt_irrefl, if_false, h.empty hz, List.nil_append]
      have all : ∀ l ∈ ls, l = [] := by simpa using hz
      have : (ls ++ [vs]).dropWhile List.isEmpty = [vs] := by
        rw [List.dropWhile_append_of_pos (by intro l hl; simp [all l hl])]
        simp [List.dropWhile_cons, hv]
      rw [this]
      simp [DataSpec.pieces]
    · have hpos : ls.flatten.length > 0 := List.length_pos_iff.2 hz
      simp only [hpos, if_true]
      rw [pieces_snoc _ _ _ h.cuts, h.pieces hz, dropWhile_snoc]
      have hz' : ∃ l ∈ ls, l ≠ [] := by
        by_contra hcon
        apply hz
        rw [List.flatten_eq_nil_iff]
        intro l hl
        by_contra hl'
        exact hcon ⟨l, hl, hl'⟩
      obtain ⟨l, hl, hl'⟩ := hz'
      exact ⟨l, hl, by simpa using hl'⟩

theorem lines_inv (ls : List (List (ν × ν))) : ∀ (st : DataBuffer ν × DataBuffer ν × List Nat)
    (done : List (List (ν × ν))), LinesInv st done → LinesInv (ls.foldl onLine st) (done ++ ls) := by
  induction ls with
  | nil => intro st done h; simpa using h
  | cons l ls ih =>
    intro st done h
    have := ih _ _ (onLine_inv h l)
    simpa using this

theorem linesInv_empty : LinesInv (({}, {}, []) : DataBuffer ν × DataBuffer ν × List Nat) [] :=
  ⟨holds_empty, holds_empty, by simp, by simp, by simp⟩

/-! ## CSV columns -/

theorem column_extract {headers : List Str} {rows : List (List Str)} {name : Str} {idx : Nat}
    (h : IsColumn headers name idx) (hrows : ∀ r ∈ rows, idx < r.length) :
    ∃ vs, csvExtractColumn (headers :: rows) name = (vs, .ok ()) ∧ vs.map some = columnOf idx rows := by
  obtain ⟨h1, h2, h3⟩ := h
  exact C12_extract_column headers rows name idx h1 h2 h3 hrows

end Clip
