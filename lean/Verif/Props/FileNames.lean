import Verif.Model.FileNames
import Verif.Props.Handles
/-!
# Removing, renaming and truncating files (C128)
-/
namespace Clip
open Handles

/-- Removing a file: either nothing changes, or the name is gone, and nothing else: other names, and everything that is open,
stay as they are.  If there is such a file and the system permits it, it is removed. -/
theorem C128_rm (A : Permits) (os : Os) (hs : os.Sound) (name : Str) :
    (rm A os name).1.Sound ∧ (∀ h : Handle, h.view (rm A os name).1 = h.view os) ∧ (rm A os name).1.fds = os.fds ∧
    (∀ n, n ≠ name → (rm A os name).1.file n = os.file n) ∧
    (rm A os name).1.file name = (if A.unlink os name = true then none else os.file name) := by
  unfold rm sysRemove
  by_cases hp : A.unlink os name = true
  · cases hn : os.names name with
    | none => simp [hs, hp, hn, Os.file]
    | some k =>
      refine ⟨?_, ?_, ?_, ?_, ?_⟩ <;> simp only [hp, Option.isSome_some, Bool.and_self, if_true, Option.getD_some]
      · refine ⟨fun n j hj => ?_, hs.fds, hs.nodes⟩
        unfold sysUnlink at hj
        simp only at hj
        split at hj
        · cases hj
        · exact hs.names n j hj
      · intro h; rfl
      · rfl
      · intro n hne; simp [Os.file, sysUnlink, hne]; rfl
      · simp [Os.file, sysUnlink]
  · simp [hs, hp]

/-- Violated by the code: that a file could not be removed, or that there is none, is not reported. -/
theorem C128_rm_silent (A : Permits) (os : Os) (name : Str) (h : A.unlink os name = false ∨ os.file name = none) :
    rm A os name = (os, .ok ()) := by
  unfold rm sysRemove
  rcases h with h | h
  · simp [h]
  · have : os.names name = none := by simpa [Os.file] using h
    simp [this]

/-- Renaming succeeds exactly if there is such a file and the system permits it; otherwise an error is reported and nothing
changes. -/
theorem C128_mv_iff (A : Permits) (os : Os) (src dst : Str) :
    ((mv A os src dst).2 = .ok () ↔ os.file src ≠ none ∧ A.rename os src dst = true) ∧
    ((mv A os src dst).2 ≠ .ok () → mv A os src dst = (os, .error .io)) := by
  unfold mv sysRename
  cases hn : os.names src with
  | none => simp [Os.file, hn]
  | some k =>
    by_cases hp : A.rename os src dst = true
    · simp [Os.file, hn, hp]
    · simp [Os.file, hn, hp]

/-- After renaming, the new name has the contents that the old one had, the old name is gone unless both names already led to
the same file, all other names have the contents they had, and everything that is open stays as it is: a file that was open
under the new name can still be read to its end. -/
theorem C128_mv (A : Permits) (os os' : Os) (hs : os.Sound) (src dst : Str) (h : mv A os src dst = (os', .ok ())) :
    os'.Sound ∧ os'.file dst = os.file src ∧ os.file src ≠ none ∧
    (os.names src ≠ os.names dst → os'.file src = none) ∧
    (∀ n, n ≠ dst → (n = src → os.names src = os.names dst) → os'.file n = os.file n) ∧
    (∀ f : Handle, f.view os' = f.view os) ∧ os'.fds = os.fds := by
  unfold mv sysRename at h
  cases hn : os.names src with
  | none => rw [hn] at h; cases h
  | some k =>
    rw [hn] at h
    by_cases hp : A.rename os src dst = true
    · simp only [if_pos hp, Prod.mk.injEq, and_true] at h
      by_cases hd : os.names dst = some k
      · rw [if_pos hd] at h
        subst h
        refine ⟨hs, by simp [Os.file, hn, hd], by simp [Os.file, hn], fun hne => absurd hd.symm hne, fun _ _ _ => rfl,
          fun _ => rfl, rfl⟩
      · rw [if_neg hd] at h
        subst h
        have hsd : src ≠ dst := fun e => hd (e ▸ hn)
        refine ⟨⟨fun n j hj => ?_, hs.fds, hs.nodes⟩, by simp [Os.file, hn]; rfl, by simp [Os.file, hn], fun _ => ?_,
          fun n hne hsrc => ?_, fun _ => rfl, rfl⟩
        · simp only at hj
          split at hj
          · cases hj; exact hs.names src k hn
          · split at hj
            · cases hj
            · exact hs.names n j hj
        · simp [Os.file, hsd]
        · have : n ≠ src := fun e => hd ((hsrc e).symm)
          simp [Os.file, hne, this]; rfl
    · simp only [if_neg hp] at h; cases h

/-- Truncating by name succeeds exactly if there is such a file and the system permits it; otherwise an error is reported and
nothing changes. -/
theorem C128_truncate_iff (A : Permits) (os : Os) (name : Str) (n : Nat) :
    ((truncateFile A os name n).2 = .ok () ↔ os.file name ≠ none ∧ A.truncate os name n = true) ∧
    ((truncateFile A os name n).2 ≠ .ok () → truncateFile A os name n = (os, .error .io)) := by
  unfold truncateFile sysTruncate
  cases hn : os.names name with
  | none => simp [Os.file, hn]
  | some k =>
    by_cases hp : A.truncate os name n = true
    · simp [Os.file, hn, hp]
    · simp [Os.file, hn, hp]

/-- After truncating to `n` bytes the file has `n` bytes: the first ones of the old contents, and zeros where there were none.
Files that are not this one under another name stay as they are, and positions of open files do not change. -/
theorem C128_truncate (A : Permits) (os os' : Os) (hs : os.Sound) (name : Str) (n : Nat) (old : Bytes)
    (hold : os.file name = some old) (h : truncateFile A os name n = (os', .ok ())) :
    os'.Sound ∧ (∃ new, os'.file name = some new ∧ new.length = n ∧
      ∀ i, i < n → new[i]? = if i < old.length then old[i]? else some 0) ∧
    (∀ m, os.names m ≠ os.names name → os'.file m = os.file m) ∧ os'.fds = os.fds ∧
    ∀ f : Handle, (f.view os').map (·.position) = (f.view os).map (·.position) := by
  unfold truncateFile sysTruncate at h
  cases hn : os.names name with
  | none => rw [hn] at h; cases h
  | some k =>
    rw [hn] at h
    have ho : os.content k = old := by simpa [Os.file, hn] using hold
    by_cases hp : A.truncate os name n = true
    · simp only [if_pos hp, Prod.mk.injEq, and_true] at h
      subst h
      have hk := hs.names name k hn
      refine ⟨⟨fun m j hj => by simpa using hs.names m j hj, hs.fds, fun d hd => by simpa using hs.nodes d hd⟩,
        ⟨old.take n ++ List.replicate (n - old.length) 0, ?_, ?_, fun i hi => ?_⟩, fun m hm => ?_, rfl, fun f => ?_⟩
      · simp [Os.file, hn, Os.content, List.getD_eq_getElem?_getD, hk]
        rw [← ho]; simp [Os.content, List.getD_eq_getElem?_getD, hk]
      · simp; omega
      · by_cases hl : i < old.length
        · rw [List.getElem?_append_left (by simp; omega), if_pos hl, List.getElem?_take, if_pos hi]
        · rw [List.getElem?_append_right (by simp; omega), if_neg hl, List.getElem?_replicate]
          have : i - (List.take n old).length < n - old.length := by simp; omega
          rw [if_pos this]
      · cases hm' : os.names m with
        | none => simp [Os.file, hm']
        | some j =>
          have : k ≠ j := fun e => hm (by rw [hm', e])
          simp [Os.file, hm', Os.content, List.getD_eq_getElem?_getD, List.getElem?_set, this]
      · simp only [Handle.view, Option.map_map]
        rfl
    · simp only [if_neg hp] at h; cases h

namespace FileNamesLemmas

theorem opened_other (S : Sys) (os os' : Os) (hs : os.Sound) (name n : Str) (fl : Flags) (h : Handle) (hd : fl.autoDelete = false)
    (ho : openFile S os name fl = (os', .ok h)) (hne : n ≠ name) (hl : os.names n ≠ none → os.names name ≠ os.names n) :
    os'.file n = os.file n ∧ os'.names n = os.names n ∧
    ∃ fd d, h.fd = some fd ∧ os'.desc fd = some d ∧ os'.names n ≠ some d.node := by
  unfold openFile at ho
  split at ho
  · cases ho
  · simp only [sysOpen, hd] at ho
    cases hopen : S.openAt os name with
    | none => simp [hopen] at ho
    | some fd =>
      cases hn : os.names name with
      | some k =>
        simp only [hopen, hn] at ho
        split at ho
        · cases ho
        · rename_i os₂ fd₂ heq
          split at heq
          · cases heq
          · simp only [Option.some.injEq, Prod.mk.injEq] at heq
            obtain ⟨h1, h2⟩ := heq
            simp only [Bool.false_eq_true, if_false, Prod.mk.injEq, Except.ok.injEq] at ho
            obtain ⟨h3, h4⟩ := ho
            subst h4 h3 h1 h2
            have hnk : os.names n ≠ some k := fun e => hl (by rw [e]; simp) (by rw [hn, e])
            refine ⟨?_, ?_, fd, ⟨k, 0, fl.read, fl.write⟩, rfl, ?_, ?_⟩
            · cases hm : os.names n with
              | none => split <;> simp [Os.file, Os.push, hm]
              | some j =>
                have : k ≠ j := fun e => hnk (by rw [hm, e])
                split <;> simp [Os.file, Os.push, hm, Os.content, List.getD_eq_getElem?_getD, List.getElem?_set, this]
            · split <;> rfl
            · split <;> simp [Os.desc, Os.push]
            · split <;> exact hnk
      | none =>
        simp only [hopen, hn] at ho
        split at ho
        · cases ho
        · rename_i os₂ fd₂ heq
          split at heq
          · simp only [Option.some.injEq, Prod.mk.injEq] at heq
            obtain ⟨h1, h2⟩ := heq
            simp only [Bool.false_eq_true, if_false, Prod.mk.injEq, Except.ok.injEq] at ho
            obtain ⟨h3, h4⟩ := ho
            subst h4 h3 h1 h2
            refine ⟨?_, ?_, fd, ⟨os.data.length, 0, fl.read, fl.write⟩, rfl, by simp [Os.desc, Os.push], ?_⟩
            · cases hm : os.names n with
              | none => simp [Os.file, Os.push, hm, hne]
              | some j =>
                have hj := hs.names n j hm
                simp [Os.file, Os.push, hm, hne, Os.content, List.getD_eq_getElem?_getD, List.getElem?_append_left hj]
            · simp [Os.push, hne]
            · simp only [Os.push, hne, if_false]
              intro e
              exact absurd (hs.names n _ e) (Nat.lt_irrefl _)
          · cases heq

theorem write_other (S : Sys) (os : Os) (n : Str) (h : Handle) (fd : Nat) (d : Desc) (hfd : h.fd = some fd)
    (hd : os.desc fd = some d) (hn : os.names n ≠ some d.node) (bs : Bytes) :
    (h.write S os bs).1.file n = os.file n ∧ (h.write S os bs).1.names n = os.names n := by
  unfold Handle.write
  simp only [hfd, hd]
  split
  · split
    · exact ⟨rfl, rfl⟩
    · unfold Os.moveTo
      split
      · refine ⟨?_, rfl⟩
        cases hm : os.names n with
        | none => simp [Os.file, hm]
        | some j =>
          have : d.node ≠ j := fun e => hn (by rw [hm, e])
          simp [Os.file, hm, Os.content, List.getD_eq_getElem?_getD, List.getElem?_set, this]
      · refine ⟨?_, rfl⟩
        cases hm : os.names n with
        | none => simp [Os.file, hm]
        | some j =>
          have : d.node ≠ j := fun e => hn (by rw [hm, e])
          simp [Os.file, hm, Os.content, List.getD_eq_getElem?_getD, List.getElem?_set, this]
  · exact ⟨rfl, rfl⟩

theorem destroy_other (h : Handle) (os : Os) (n : Str) : (h.destroy os).file n = os.file n ∧ (h.destroy os).names n = os.names n := by
  unfold Handle.destroy sysClose
  split
  · split <;> exact ⟨rfl, rfl⟩
  · exact ⟨rfl, rfl⟩

theorem writeWhole_other (S : Sys) (os : Os) (hs : os.Sound) (name n : Str) (bs : Bytes) (hne : n ≠ name)
    (hl : os.names n ≠ none → os.names name ≠ os.names n) :
    (writeWhole S os name bs).1.file n = os.file n ∧ (writeWhole S os name bs).1.names n = os.names n := by
  unfold writeWhole
  split
  · rename_i os₂ e heq
    unfold openFile at heq
    split at heq
    · cases heq; exact ⟨rfl, rfl⟩
    · simp only at heq
      split at heq
      · cases heq; exact ⟨rfl, rfl⟩
      · cases heq
  · rename_i os₂ h heq
    obtain ⟨h1, h2, fd, d, h3, h4, h5⟩ := opened_other S os os₂ hs name n _ h rfl heq hne hl
    obtain ⟨h6, h7⟩ := write_other S os₂ n h fd d h3 h4 h5 bs
    obtain ⟨h8, h9⟩ := destroy_other h (h.write S os₂ bs).1 n
    exact ⟨h8.trans (h6.trans h1), h9.trans (h7.trans h2)⟩

end FileNamesLemmas

/-- A program that writes a file under another name and then renames it replaces the contents completely or not at all: however
the writing or the renaming fails, the name has its old contents, and if both succeed, the new ones. -/
theorem C128_replace (S : Sys) (hS : S.Sane) (A : Permits) (os : Os) (hs : os.Sound) (tmp dst : Str) (bs : Bytes)
    (hne : tmp ≠ dst) (hlink : os.names dst ≠ none → os.names tmp ≠ os.names dst) :
    (writeWhole S os tmp bs).1.file dst = os.file dst ∧
    ((writeWhole S os tmp bs).2 = .ok () →
      ((mv A (writeWhole S os tmp bs).1 tmp dst).2 = .ok () → (mv A (writeWhole S os tmp bs).1 tmp dst).1.file dst = some bs) ∧
      ((mv A (writeWhole S os tmp bs).1 tmp dst).2 ≠ .ok () →
        (mv A (writeWhole S os tmp bs).1 tmp dst).1.file dst = os.file dst)) := by
  obtain ⟨h1, h2⟩ := FileNamesLemmas.writeWhole_other S os hs tmp dst bs hne.symm hlink
  refine ⟨h1, fun hw => ?_⟩
  have hw' : writeWhole S os tmp bs = ((writeWhole S os tmp bs).1, .ok ()) := by rw [← hw]
  obtain ⟨hf, -, hs'⟩ := C117_write_whole S hS os _ hs tmp bs hw'
  refine ⟨fun hm => ?_, fun hm => by rw [(C128_mv_iff A _ tmp dst).2 hm, h1]⟩
  have hm' : mv A (writeWhole S os tmp bs).1 tmp dst = ((mv A (writeWhole S os tmp bs).1 tmp dst).1, .ok ()) := by rw [← hm]
  rw [(C128_mv A _ _ hs' tmp dst hm').2.1, hf]

/-- A system that permits everything, with two files. -/
example : let os : Os := ⟨fun n => if n = ['a'] then some 0 else if n = ['b'] then some 1 else none, [[1, 2], [3]], [], fun _ => none, 0⟩
    let A : Permits := ⟨fun _ _ => true, fun _ _ _ => true, fun _ _ _ => true⟩
    os.Sound ∧ (mv A os ['a'] ['b']).1.file ['b'] = some [1, 2] ∧ (mv A os ['a'] ['b']).1.file ['a'] = none ∧
    (rm A os ['a']).1.file ['a'] = none ∧ (truncateFile A os ['a'] 3).1.file ['a'] = some [1, 2, 0] ∧
    (mv A os ['a'] ['b']).2 = .ok () ∧ (truncateFile A os ['a'] 3).2 = .ok () := by
  refine ⟨⟨fun n k h => ?_, fun fd i h => by simp at h, fun d hd => by simp at hd⟩, rfl, rfl, rfl, rfl, rfl, rfl⟩
  simp only at h
  split at h
  · cases h; decide
  · split at h
    · cases h; decide
    · cases h

end Clip
