import Verif.Spec.Streams
/-!
# C112: output streams
-/
namespace Clip
open Streams

/-- C112: a string or buffer stream takes everything: after any writes and prints, each print shorter than 8192 bytes, the
target has grown by all the texts in order, and the numbers returned are their lengths. -/
theorem C112_string (S : Sys) (acts : List Action) (w : World)
    (h : ∀ a ∈ acts, ∀ t, a = .print t → t.length < 8192) :
    AllDo S .string acts w { w with text := w.text ++ acts.flatMap Action.bytes } (acts.map fun a => a.bytes.length) := by
  induction acts generalizing w with
  | nil => simpa using AllDo.nil w
  | cons a as ih =>
    have ha : a.Does S .string w { w with text := w.text ++ a.bytes } a.bytes.length := by
      cases a with
      | write d => rfl
      | print t =>
        have := h _ (List.mem_cons_self ..) t rfl
        simp [Action.Does, Stream.print, Stream.write, Action.bytes, this]
    have := AllDo.cons ha (ih _ fun b hb => h b (List.mem_cons_of_mem _ hb))
    simpa [List.append_assoc] using this

/-- C112, violated by the code: to a string or buffer stream a text of 8192 bytes or more cannot be printed: an exception is
raised and nothing is written. -/
theorem C112_long_print (S : Sys) (w : World) (t : Str) (h : 8192 ≤ t.length) :
    Stream.string.print S w t = (w, .error .overflow) := by
  simp [Stream.print, Nat.not_lt.2 h]

/-- C112: whatever happens with a stream, its target only grows, by the beginning of the text given, and nothing else
changes; the number returned is the number of bytes that were added. -/
theorem C112_grows (S : Sys) (hS : S.Sane) (s : Stream) (a : Action) (w w' : World) (n : Nat) (h : a.Does S s w w' n) :
    n ≤ a.bytes.length ∧ s.target w' = s.target w ++ a.bytes.take n ∧ w'.isOpen = w.isOpen ∧
    (∀ s' : Stream, (∀ fd b b', s = .file fd b → s' ≠ .file fd b') → (s = .string → s' ≠ .string) →
      s'.target w' = s'.target w) := by
  have file : ∀ (fd : Nat) (b : Bool) (m : Nat) (d : Str), m ≤ d.length → (World.put w fd (d.take m)).isOpen = w.isOpen ∧
      Stream.target (World.put w fd (d.take m)) (.file fd b) = w.file fd ++ d.take m ∧
      (∀ s' : Stream, (∀ b', s' ≠ .file fd b') → s'.target (World.put w fd (d.take m)) = s'.target w) := by
    intro fd b m d _
    refine ⟨rfl, by simp [World.put, Stream.target], ?_⟩
    intro s' hs'
    cases s' with
    | string => rfl
    | file fd' b' =>
      have : fd' ≠ fd := by rintro rfl; exact hs' b' rfl
      simp [World.put, Stream.target, this]
  cases s with
  | string =>
    have hn : n = a.bytes.length ∧ w' = { w with text := w.text ++ a.bytes } := by
      cases a with
      | write d =>
        simp only [Action.Does, Stream.write, Prod.mk.injEq, Except.ok.injEq] at h
        exact ⟨h.2.symm, h.1.symm⟩
      | print t =>
        simp only [Action.Does, Stream.print, Stream.write] at h
        split at h
        · simp only [Prod.mk.injEq, Except.ok.injEq] at h
          exact ⟨h.2.symm, h.1.symm⟩
        · simp at h
    obtain ⟨rfl, rfl⟩ := hn
    refine ⟨Nat.le_refl _, by simp [Stream.target], rfl, ?_⟩
    intro s' _ hs'
    cases s' with
    | string => exact absurd rfl (hs' rfl)
    | file fd b => rfl
  | file fd b =>
    cases a with
    | write d =>
      simp only [Action.Does, Stream.write] at h
      split at h
      · simp at h
      · rename_i m hm
        simp only [Prod.mk.injEq, Except.ok.injEq] at h
        obtain ⟨rfl, rfl⟩ := h
        have hle := hS.write _ _ _ _ hm
        obtain ⟨h1, h2, h3⟩ := file fd b m d hle
        exact ⟨hle, h2, h1, fun s' hs' _ => h3 s' fun b' => hs' fd b b' rfl⟩
    | print t =>
      simp only [Action.Does, Stream.print] at h
      split at h
      · rename_i m hm
        simp only [Prod.mk.injEq, Except.ok.injEq] at h
        obtain ⟨rfl, rfl⟩ := h
        have hle : m ≤ t.length := Nat.le_of_eq (hS.print _ _ _ _ hm)
        obtain ⟨h1, h2, h3⟩ := file fd b m t hle
        exact ⟨hle, h2, h1, fun s' hs' _ => h3 s' fun b' => hs' fd b b' rfl⟩
      · simp at h

/-- C112: a stream on a file takes everything if the system takes every text it is given whole. -/
theorem C112_file_partial (S : Sys) (fd : Nat) (b : Bool) (acts : List Action) (w : World)
    (hw : ∀ w d, S.write w fd d = some d.length) (hp : ∀ w t, S.print w fd t = (t.length, true)) :
    ∃ w', AllDo S (.file fd b) acts w w' (acts.map fun a => a.bytes.length) ∧
      w'.file fd = w.file fd ++ acts.flatMap Action.bytes := by
  induction acts generalizing w with
  | nil => exact ⟨w, .nil w, by simp⟩
  | cons a as ih =>
    have ha : a.Does S (.file fd b) w (w.put fd a.bytes) a.bytes.length := by
      cases a with
      | write d => simp [Action.Does, Stream.write, hw, Action.bytes]
      | print t => simp [Action.Does, Stream.print, hp, Action.bytes]
    obtain ⟨w', h1, h2⟩ := ih (w.put fd a.bytes)
    refine ⟨w', .cons ha h1, ?_⟩
    rw [h2]
    simp [World.put, List.append_assoc]

/-- C112, violated by the code: if the system takes only the beginning of a text, as it may, the rest is not written and no
exception is raised. -/
theorem C112_short_write (S : Sys) (w : World) (fd : Nat) (b : Bool) (d : Str) (n : Nat) (h : S.write w fd d = some n)
    (hn : n < d.length) :
    ∃ w', (Action.write d).Does S (.file fd b) w w' n ∧ w'.file fd = w.file fd ++ d.take n ∧
      w'.file fd ≠ w.file fd ++ d := by
  refine ⟨w.put fd (d.take n), by simp [Action.Does, Stream.write, h], by simp [World.put], ?_⟩
  intro hc
  have := congrArg List.length hc
  simp [World.put] at this
  omega

/-- C112: an error of the system is raised, and nothing is written by the code. -/
theorem C112_error (S : Sys) (w : World) (fd : Nat) (b : Bool) (d : Str) (h : S.write w fd d = none) :
    (Stream.file fd b).write S w d = (w, .error .io) := by
  simp [Stream.write, h]

/-- C112: a file that was opened is closed when its stream is destroyed, whatever was done with the stream, and nothing
else is closed; the standard streams stay open. -/
theorem C112_close (S : Sys) (hS : S.Sane) (w w₁ w₂ : World) (path : Str) (s : Stream) (acts : List Action) (ns : List Nat)
    (ho : openFile S w path = (w₁, .ok s)) (ha : AllDo S s acts w₁ w₂ ns) :
    (∃ fd b, s = .file fd b ∧ w.isOpen fd = false ∧ w₁.isOpen fd = true) ∧ (s.destroy w₂).isOpen = w.isOpen ∧
    stdoutStream.destroy w = w ∧ stderrStream.destroy w = w := by
  have keep : w₂.isOpen = w₁.isOpen := by
    clear ho
    induction ha with
    | nil => rfl
    | cons h _ ih => rw [ih, (C112_grows S hS _ _ _ _ _ h).2.2.1]
  unfold openFile at ho
  split at ho
  · simp at ho
  · rename_i fd hfd
    simp only at ho
    split at ho
    · simp at ho
    · simp only [Prod.mk.injEq, Except.ok.injEq] at ho
      obtain ⟨rfl, rfl⟩ := ho
      have hnew := hS.openAt _ _ _ hfd
      refine ⟨⟨fd, true, rfl, hnew, by simp⟩, ?_, rfl, rfl⟩
      funext k
      simp only [Stream.destroy, keep]
      by_cases hk : k = fd
      · subst hk; simp [hnew]
      · simp [hk]

/-- C112: what is written to the standard output goes to descriptor 1, what is written to the standard error to descriptor 2,
and nowhere else. -/
theorem C112_standard (S : Sys) (hS : S.Sane) (a : Action) (w w' : World) (n : Nat) :
    (a.Does S stdoutStream w w' n → w'.file 1 = w.file 1 ++ a.bytes.take n ∧ ∀ k ≠ 1, w'.file k = w.file k) ∧
    (a.Does S stderrStream w w' n → w'.file 2 = w.file 2 ++ a.bytes.take n ∧ ∀ k ≠ 2, w'.file k = w.file k) := by
  constructor
  · intro h
    obtain ⟨_, h2, _, h4⟩ := C112_grows S hS _ _ _ _ _ h
    refine ⟨h2, fun k hk => h4 (.file k false) (fun fd b b' he hf => ?_) (fun he => by cases he)⟩
    cases he; cases hf; exact hk rfl
  · intro h
    obtain ⟨_, h2, _, h4⟩ := C112_grows S hS _ _ _ _ _ h
    refine ⟨h2, fun k hk => h4 (.file k false) (fun fd b b' he hf => ?_) (fun he => by cases he)⟩
    cases he; cases hf; exact hk rfl

/-- C112: opening a file fails without a change if the system refuses; if the system gives a descriptor other than 0, there is a
stream that writes to it, and nothing was written yet. -/
theorem C112_open (S : Sys) (w : World) (path : Str) :
    (S.openAt w path = none → openFile S w path = (w, .error .io)) ∧
    ∀ fd, S.openAt w path = some fd → fd ≠ 0 → ∃ w' s, openFile S w path = (w', .ok s) ∧ w'.isOpen fd = true ∧
      (∀ k ≠ fd, w'.isOpen k = w.isOpen k) ∧ w'.file = w.file ∧ w'.text = w.text ∧ ∀ v : World, s.target v = v.file fd := by
  constructor
  · intro h; simp [openFile, h]
  · intro fd h h0
    refine ⟨{ w with isOpen := fun k => k = fd || w.isOpen k }, .file fd true, by simp only [openFile, h]; rw [if_neg (by omega)], by simp, fun k hk => by simp [hk], rfl, rfl, fun v => rfl⟩

/-- C112: if printing to a file fails, the error is reported, and at most the beginning of the text was written. -/
theorem C112_print_error (S : Sys) (w : World) (fd n : Nat) (b : Bool) (t : Str) (h : S.print w fd t = (n, false)) :
    ∃ w', (Stream.file fd b).print S w t = (w', .error .io) ∧ w'.file fd = w.file fd ++ t.take n ∧
      ∀ k ≠ fd, w'.file k = w.file k := by
  refine ⟨w.put fd (t.take n), by simp [Stream.print, h], by simp [World.put], fun k hk => by simp [World.put, hk]⟩

/-- C112, violated by the code: if the standard input was closed before, the system gives a new file the number 0; then an
exception is raised although the file is open, and it stays open. -/
theorem C112_descriptor_zero (S : Sys) (w : World) (path : Str) (h : S.openAt w path = some 0) :
    ∃ w', openFile S w path = (w', .error .io) ∧ w'.isOpen 0 = true :=
  ⟨{ w with isOpen := fun k => k = 0 || w.isOpen k }, by simp [openFile, h], by simp⟩

namespace Streams

/-- A system: `write` takes at most four bytes at a time, and new files get the number 3. -/
def exSys : Sys where
  write _ _ d := some (min 4 d.length)
  print _ _ t := (t.length, true)
  openAt w _ := if w.isOpen 3 then none else some 3

theorem exSys_sane : exSys.Sane where
  write w fd d n h := by simp [exSys] at h; omega
  print w fd t n h := by simp [exSys] at h; omega
  openAt w p fd h := by
    simp only [exSys] at h
    split at h
    · cases h
    · rename_i ho
      cases h
      exact Bool.eq_false_iff.2 ho

end Streams

/-- A file is opened and `hello` is written to it: `hell` arrives. -/
example : ∃ w₁ w₂, openFile exSys ⟨fun _ => false, fun _ => [], []⟩ ['f'] = (w₁, .ok (.file 3 true)) ∧
    AllDo exSys (.file 3 true) [.write "hello".toList] w₁ w₂ [4] ∧ w₂.file 3 = "hell".toList :=
  ⟨_, _, rfl, .cons rfl (.nil _), rfl⟩

/-- The hypotheses of `C112_string`. -/
example : ∀ a ∈ [Action.write "a".toList, .print "b".toList], ∀ t, a = .print t → t.length < 8192 := by
  simp [Action.bytes]

end Clip
