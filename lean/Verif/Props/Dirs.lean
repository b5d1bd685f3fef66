import Verif.Spec.Dirs
import Verif.Props.StringUtil
/-! # Property C121: listing directories and adding up the sizes of files -/
set_option linter.unusedSimpArgs false
namespace Clip
open Dirs

namespace DirLemmas

theorem lsLoop_hidden {σ : Type} (cb : σ → Str → Outcome Unit (σ × Bool)) (names : List Str) (hn : [] ∉ names) (s : σ) :
    lsLoop cb names s = lsLoop cb (names.filter (¬ Hidden ·)) s := by
  induction names generalizing s with
  | nil => rfl
  | cons n ns ih =>
    have hne : n ≠ [] := fun h => hn (by simp [h])
    have hns : [] ∉ ns := fun h => hn (by simp [h])
    by_cases h : Hidden n
    · have h' : n.head? = some '.' := h
      simp only [lsLoop, h', or_true, if_true, List.filter_cons, h, decide_not, decide_true, Bool.not_true,
        Bool.false_eq_true, if_false]
      simpa using ih hns s
    · have h' : ¬ (n.length < 1 ∨ n.head? = some '.') := by
        rintro (h1 | h1)
        · exact hne (List.length_eq_zero_iff.1 (by omega))
        · exact h h1
      simp only [List.filter_cons, h, decide_not, decide_false, Bool.not_false, if_true, lsLoop, h', if_false]
      cases cb s n with
      | ok r => obtain ⟨s', b⟩ := r; cases b with
        | true => simpa using ih hns s'
        | false => rfl
      | error e => rfl
      | thrown => rfl
      | undefined => rfl

theorem join {p q name : Str} (hb : Bare p q) (h0 : name ≠ []) (h1 : '/' ∉ name) :
    joinPaths p name = some (q ++ '/' :: name) := by
  obtain ⟨h2, h3, n, rfl⟩ := hb
  have := C59_join_paths_partial q name n 0 h2 h0 h3 (by
    intro h
    exact h1 (List.mem_of_getLast? h))
  simpa using this

end DirLemmas
open DirLemmas

/-- C121: listing a directory tells the callback the names in it that are not hidden, in the order of the system, until the
callback says to stop. -/
theorem C121_listing {σ : Type} (D : Disk) (p : Str) (k : Nat) (names : List Str) (hp : D.size p = some k)
    (hl : D.list p = some names) (hn : [] ∉ names) (callback : σ → Str → σ × Bool) (s s' : σ) :
    D.ls p (fun s n => .ok (callback s n)) s = .ok s' ↔ Told callback (names.filter (¬ Hidden ·)) s s' := by
  simp only [Disk.ls, hp, hl]
  rw [lsLoop_hidden _ _ hn]
  have hv : ∀ n ∈ names.filter (¬ Hidden ·), n ≠ [] ∧ ¬ Hidden n := by
    intro n h
    rw [List.mem_filter] at h
    exact ⟨fun e => hn (e ▸ h.1), by simpa using h.2⟩
  generalize names.filter (¬ Hidden ·) = l at hv
  clear hp hl hn
  induction l generalizing s with
  | nil =>
    constructor
    · intro h; cases h; exact .done
    · intro h; cases h; rfl
  | cons n ns ih =>
    have h' : ¬ (n.length < 1 ∨ n.head? = some '.') := by
      rintro (h1 | h1)
      · exact (hv n (by simp)).1 (List.length_eq_zero_iff.1 (by omega))
      · exact (hv n (by simp)).2 h1
    simp only [lsLoop, h', if_false]
    rcases hc : callback s n with ⟨t, b⟩
    cases b with
    | false =>
      constructor
      · intro h; cases h; exact .stop hc
      · intro h
        cases h with
        | stop h => rw [hc] at h; cases h; rfl
        | on h _ => rw [hc] at h; cases h
    | true =>
      constructor
      · intro h; exact .on hc ((ih t fun m hm => hv m (by simp [hm])).1 h)
      · intro h
        cases h with
        | stop h => rw [hc] at h; cases h
        | on h hr => rw [hc] at h; cases h; exact (ih t fun m hm => hv m (by simp [hm])).2 hr

/-- C121: what does not exist or is no directory cannot be listed, and has no size. -/
theorem C121_refused {σ : Type} (D : Disk) (p : Str) (h : D.size p = none ∨ D.list p = none)
    (callback : σ → Str → Outcome Unit (σ × Bool)) (s : σ) (fuel : Nat) :
    D.ls p callback s = .thrown ∧ D.duC (fuel + 1) p = .thrown := by
  have key : ∀ {τ : Type} (cb : τ → Str → Outcome Unit (τ × Bool)) (t : τ), D.ls p cb t = .thrown := by
    intro τ cb t
    unfold Disk.ls
    rcases h with h | h
    · rw [h]
    · rw [h]; cases D.size p <;> rfl
  exact ⟨key _ _, by rw [Disk.duC]; exact key _ _⟩

namespace DirLemmas

/-- The callback of `du_c`. -/
theorem duC_eq (D : Disk) (fuel : Nat) (p : Str) : D.duC (fuel + 1) p =
    D.ls p (D.duCallback (D.duC fuel) p) 0 := by rw [Disk.duC]

theorem filter_entries (es : List (Str × Node)) (h : ∀ e ∈ es, e.1 ≠ []) : [] ∉ (es.map Prod.fst).filter (¬ Hidden ·) := by
  intro hm
  rw [List.mem_filter] at hm
  obtain ⟨e, he, h0⟩ := List.mem_map.1 hm.1
  exact h e he h0

end DirLemmas

mutual
/-- C121: the size of a directory is the number of bytes of all files in it and in the directories inside it, except those
behind hidden names. -/
theorem du_node (D : Disk) (p : Str) (c : Node) (h : Holds D p c) (fuel : Nat) (hf : c.depth ≤ fuel) :
    (∃ n, c = .file n ∧ D.size p = some n ∧ D.list p = none) ∨
    ((∃ k l, D.size p = some k ∧ D.list p = some l) ∧ D.duC fuel p = .ok c.visibleBytes) := by
  match h with
  | .file (n := n) h1 h2 => exact .inl ⟨n, rfl, h1, h2⟩
  | .dir (q := q) (k := k) (names := names) (es := es) h1 h2 h3 h4 h5 =>
    refine .inr ⟨⟨k, names, h1, h2⟩, ?_⟩
    match fuel with
    | 0 => simp [Node.depth] at hf
    | fuel + 1 =>
      rw [duC_eq]
      simp only [Disk.ls, h1, h2]
      have hd : depthIn es ≤ fuel := by simp only [Node.depth] at hf; omega
      have := du_entries D p q h3 es h5 fuel hd 0
      rw [Nat.zero_add] at this
      show lsLoop _ names 0 = .ok (visibleBytesIn es)
      rw [← this, ← h4]
      by_cases hn : [] ∈ names
      · -- an empty name is not hidden, and would be among the entries
        exfalso
        have hm : ([] : Str) ∈ names.filter (¬ Hidden ·) := List.mem_filter.2 ⟨hn, by simp [Hidden]⟩
        rw [h4] at hm
        exact filter_entries es (entry_names D q es h5) hm
      · exact lsLoop_hidden _ _ hn _
theorem du_entries (D : Disk) (p q : Str) (hb : Bare p q) (es : List (Str × Node)) (h : HoldsIn D q es) (fuel : Nat)
    (hf : depthIn es ≤ fuel) (s : Nat) :
    lsLoop (D.duCallback (D.duC fuel) p) ((es.map Prod.fst).filter (¬ Hidden ·)) s = .ok (s + visibleBytesIn es) := by
  match h with
  | .nil => rfl
  | .cons (name := name) (c := c) (es := es') h1 h2 h3 h4 =>
    have hd : c.depth ≤ fuel ∧ depthIn es' ≤ fuel := by simp only [depthIn] at hf; omega
    by_cases hh : Hidden name
    · have := du_entries D p q hb es' h4 fuel hd.2 s
      simp only [List.map_cons, List.filter_cons, hh, decide_not, decide_true, Bool.not_true, Bool.false_eq_true, if_false,
        visibleBytesIn, if_true, Nat.zero_add]
      simpa using this
    · have h' : ¬ (name.length < 1 ∨ name.head? = some '.') := by
        rintro (h | h)
        · exact h1 (List.length_eq_zero_iff.1 (by omega))
        · exact hh h
      have ih := du_entries D p q hb es' h4 fuel hd.2
      have hc := du_node D _ c h3 fuel hd.1
      simp only [List.map_cons, List.filter_cons, hh, decide_not, decide_false, Bool.not_false, if_true, lsLoop, h', if_false,
        Disk.duCallback, join hb h1 h2, visibleBytesIn]
      rcases hc with ⟨n, rfl, h5, h6⟩ | ⟨⟨k, l, h5, h6⟩, h7⟩
      · simp only [Disk.isDirectory, Disk.sizeOf, h5, h6, Option.isSome_none, Node.visibleBytes]
        have := ih (s + n)
        rw [Nat.add_assoc] at this
        simpa using this
      · simp only [Disk.isDirectory, h5, h6, Option.isSome_some, h7]
        have := ih (s + c.visibleBytes)
        rw [Nat.add_assoc] at this
        simpa using this
theorem entry_names (D : Disk) (q : Str) (es : List (Str × Node)) (h : HoldsIn D q es) : ∀ e ∈ es, e.1 ≠ [] := by
  match h with
  | .nil => simp
  | .cons h1 _ _ h4 =>
    intro e he
    rcases List.mem_cons.1 he with rfl | he
    · exact h1
    · exact entry_names D q _ h4 e he
end

/-- C121: the size of a directory is the number of bytes of all files in it and in the directories inside it, except those
behind hidden names; `du_c` finishes, with no more calls inside each other than there are directories inside each other. -/
theorem C121_size (D : Disk) (p : Str) (es : List (Str × Node)) (h : Holds D p (.dir es)) (fuel : Nat)
    (hf : (Node.dir es).depth ≤ fuel) : D.duC fuel p = .ok (Node.dir es).visibleBytes := by
  rcases du_node D p _ h fuel hf with ⟨n, h1, _⟩ | ⟨_, h1⟩
  · cases h1
  · exact h1

/-- C121, violated by the code: unlike `du -c`, hidden files do not count: with a hidden file that is not empty, less than
the bytes of all files are reported. -/
theorem C121_hidden_lost (D : Disk) (p : Str) (name : Str) (n : Nat) (es : List (Str × Node)) (hn : Hidden name) (h0 : 0 < n)
    (h : Holds D p (.dir ((name, .file n) :: es))) (fuel : Nat) (hf : (Node.dir ((name, .file n) :: es)).depth ≤ fuel) :
    ∃ total, D.duC fuel p = .ok total ∧ total < (Node.dir ((name, .file n) :: es)).bytes := by
  refine ⟨_, C121_size D p _ h fuel hf, ?_⟩
  have key := le es
  simp only [Node.visibleBytes, Node.bytes, visibleBytesIn, bytesIn, hn, if_true, Nat.zero_add]
  omega
where
  le : ∀ es : List (Str × Node), visibleBytesIn es ≤ bytesIn es
  | [] => by simp [visibleBytesIn, bytesIn]
  | (name, c) :: es => by
    have h1 := le es
    have h2 := leNode c
    simp only [visibleBytesIn, bytesIn]
    split <;> omega
  leNode : ∀ c : Node, c.visibleBytes ≤ c.bytes
  | .file n => by simp [Node.visibleBytes, Node.bytes]
  | .dir es => by simp only [Node.visibleBytes, Node.bytes]; exact le es

/-- C121, violated by the code: the size of the root directory is undefined as soon as there is anything in it (a path of
slashes only is stripped of its slashes, beyond its beginning). -/
theorem C121_root_undefined (D : Disk) (k : Nat) (names : List Str) (n : Nat) (hp : D.size (List.replicate n '/') = some k)
    (hl : D.list (List.replicate n '/') = some names) (hn : [] ∉ names) (hv : ∃ name ∈ names, ¬ Hidden name) (fuel : Nat) :
    D.duC (fuel + 1) (List.replicate n '/') = .undefined := by
  rw [duC_eq]
  simp only [Disk.ls, hp, hl]
  rw [lsLoop_hidden _ _ hn]
  obtain ⟨name, h1, h2⟩ := hv
  have hm : name ∈ names.filter (¬ Hidden ·) := List.mem_filter.2 ⟨h1, by simpa using h2⟩
  rcases hf : names.filter (¬ Hidden ·) with _ | ⟨m, ms⟩
  · rw [hf] at hm; cases hm
  have hm' : m ∈ names.filter (¬ Hidden ·) := by rw [hf]; simp
  rw [List.mem_filter] at hm'
  have h' : ¬ (m.length < 1 ∨ m.head? = some '.') := by
    rintro (h | h)
    · exact hn ((List.length_eq_zero_iff.1 (by omega) : m = []) ▸ hm'.1)
    · have : ¬ Hidden m := by simpa using hm'.2
      exact this h
  simp only [lsLoop, h', if_false, Disk.duCallback, (C59_trim_undefined n).2.2.2.2.1 m]

/-- A directory `d` with `.`, a file of three bytes, a hidden file of two bytes and a directory that holds a file of four. -/
def exDisk : Disk where
  size p := if p = ['d'] ∨ p = ['d', '/'] ∨ p = ['d', '/', 's'] then some 64 else if p = ['d', '/', 'a'] then some 3
    else if p = ['d', '/', '.', 'h'] then some 2 else if p = ['d', '/', 's', '/', 'b'] then some 4 else none
  list p := if p = ['d'] ∨ p = ['d', '/'] then some [['.'], ['a'], ['.', 'h'], ['s']]
    else if p = ['d', '/', 's'] then some [['.'], ['b']] else none

/-- What it holds. -/
def exEntries : List (Str × Node) :=
  [(['.', 'h'], .file 2), (['a'], .file 3), (['s'], .dir [(['b'], .file 4)])]

theorem exDisk_holds : Holds exDisk ['d', '/'] (.dir exEntries) := by
  refine .dir (q := ['d']) (k := 64) (names := [['.'], ['a'], ['.', 'h'], ['s']]) (by decide) (by decide)
    ⟨by decide, by decide, 1, rfl⟩ (by decide) ?_
  refine .cons (by decide) (by decide) (.file (by decide) (by decide)) ?_
  refine .cons (by decide) (by decide) (.file (by decide) (by decide)) ?_
  refine .cons (by decide) (by decide) ?_ .nil
  refine .dir (q := ['d', '/', 's']) (k := 64) (names := [['.'], ['b']]) (by decide) (by decide)
    ⟨by decide, by decide, 0, rfl⟩ (by decide) ?_
  exact .cons (by decide) (by decide) (.file (by decide) (by decide)) .nil

/-- Seven of its nine bytes are reported. -/
example : exDisk.duC 2 ['d', '/'] = .ok 7 ∧ (Node.dir exEntries).bytes = 9 :=
  ⟨C121_size _ _ _ exDisk_holds 2 (by decide), rfl⟩

example : ∃ total, exDisk.duC 2 ['d', '/'] = .ok total ∧ total < (Node.dir exEntries).bytes :=
  C121_hidden_lost _ _ ['.', 'h'] 2 _ (by decide) (by decide) exDisk_holds 2 (by decide)

/-- C121: whether something is a directory is not told for what does not exist: that raises an exception. -/
theorem C121_is_directory (D : Disk) (p : Str) :
    (D.isDirectory p = .thrown ↔ D.size p = none) ∧
    ∀ b, D.isDirectory p = .ok b ↔ D.size p ≠ none ∧ (b = true ↔ D.list p ≠ none) := by
  unfold Disk.isDirectory
  cases h : D.size p <;> cases h' : D.list p <;> simp

end Clip
