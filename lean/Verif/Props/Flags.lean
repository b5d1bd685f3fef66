import Verif.Spec.Cmdline
/-!
# C45: command line flags
-/
set_option linter.unusedSimpArgs false
namespace Clip
open Cmdline

/-! ## Looking up flags -/

theorem findIdx_unique {α : Type} {l : List α} {p : α → Bool} {i : Nat} {a : α} (h : l[i]? = some a) (hp : p a = true)
    (hu : ∀ j b, l[j]? = some b → p b = true → j = i) : l.findIdx? p = some i := by
  rw [List.findIdx?_eq_some_iff_getElem]
  obtain ⟨hi, e⟩ := List.getElem?_eq_some_iff.1 h
  refine ⟨hi, by rw [e]; exact hp, ?_⟩
  intro j hj
  by_cases hb : p l[j] = true
  · exact absurd (hu j _ (List.getElem?_eq_getElem (by omega)) hb) (by omega)
  · simpa using hb

theorem short_unique {flags : List Flag} (hg : GoodFlags flags) {i j : Nat} {f g : Flag} {c : Char}
    (hi : flags[i]? = some f) (hj : flags[j]? = some g) (hf : f.short = some c) (hg' : g.short = some c) : j = i := by
  obtain ⟨hi', ei⟩ := List.getElem?_eq_some_iff.1 hi
  obtain ⟨hj', ej⟩ := List.getElem?_eq_some_iff.1 hj
  have hp := List.pairwise_iff_getElem.1 hg.short_distinct
  rcases Nat.lt_trichotomy i j with h | h | h
  · exact absurd (ej ▸ hg') (hp i j hi' hj' h c (ei ▸ hf))
  · exact h.symm
  · exact absurd (ei ▸ hf) (hp j i hj' hi' h c (ej ▸ hg'))

theorem long_unique {flags : List Flag} (hg : GoodFlags flags) {i j : Nat} {f g : Flag}
    (hi : flags[i]? = some f) (hj : flags[j]? = some g) (he : g.long = f.long) : j = i := by
  obtain ⟨hi', ei⟩ := List.getElem?_eq_some_iff.1 hi
  obtain ⟨hj', ej⟩ := List.getElem?_eq_some_iff.1 hj
  have hp := List.pairwise_iff_getElem.1 hg.long_distinct
  rcases Nat.lt_trichotomy i j with h | h | h
  · exact absurd (by rw [ei, ej]; exact he.symm) (hp i j hi' hj' h)
  · exact h.symm
  · exact absurd (by rw [ei, ej]; exact he) (hp j i hj' hi' h)

theorem lookupLong_name {flags : List Flag} (hg : GoodFlags flags) {i : Nat} {f : Flag} (hi : flags[i]? = some f) :
    lookupLong flags f.long = some i := by
  rw [lookupLong, findIdx_unique (i := i) hi (by simp)]
  intro j b hj hb
  exact long_unique hg hi hj (by simpa using hb)

theorem lookupShort_name {flags : List Flag} (hg : GoodFlags flags) {i : Nat} {f : Flag} {c : Char}
    (hi : flags[i]? = some f) (hc : f.short = some c) : lookupShort c (optsShort flags) = some f.hasArg := by
  have hmem : f ∈ flags := List.mem_of_getElem? hi
  have hcc := hg.short_ok f hmem c hc
  clear hi
  obtain ⟨h1, h2, -, -⟩ := hg
  induction flags with
  | nil => cases hmem
  | cons g gs ih =>
    have hhead : ∀ gs : List Flag, (∀ f ∈ gs, ∀ c, f.short = some c → c ≠ ':' ∧ c ≠ ';' ∧ c ≠ '-' ∧ c ≠ '?') →
        ((optsShort gs).head? == some ':') = false := by
      intro gs hgs
      induction gs with
      | nil => rfl
      | cons g gs ih =>
        have ih := ih (fun f hf => hgs f (List.mem_cons_of_mem _ hf))
        simp only [optsShort, List.flatMap_cons]
        cases hs : g.short with
        | none => simpa [optsShort] using ih
        | some d =>
          have := (hgs g List.mem_cons_self d hs).1
          simpa using this
    have hrest := hhead gs (fun f hf => h1 f (List.mem_cons_of_mem _ hf))
    have hnc : ¬(c = ':' ∨ c = ';') := by
      rintro (h | h)
      · exact hcc.1 h
      · exact hcc.2.1 h
    rw [List.pairwise_cons] at h2
    have hcons : optsShort (g :: gs) = (match g.short with
      | none => []
      | some c => c :: if g.hasArg then [':'] else []) ++ optsShort gs := by
      rw [optsShort, List.flatMap_cons]
      cases g.short <;> rfl
    rw [hcons]
    rcases List.mem_cons.1 hmem with rfl | hm
    · rw [hc]
      simp only [List.cons_append, lookupShort, if_neg hnc, if_true]
      cases hh : f.hasArg with
      | true => simp
      | false => simpa using hrest
    · have ih := ih hm (fun f hf => h1 f (List.mem_cons_of_mem _ hf)) h2.2
      cases hs : g.short with
      | none => simpa using ih
      | some d =>
        have hdc : d ≠ c := by
          rintro rfl
          exact h2.1 f hm d hs hc
        simp only [List.cons_append, lookupShort, if_neg hnc, if_neg hdc]
        cases g.hasArg with
        | false => simpa using ih
        | true =>
          simp only [if_true, List.cons_append, List.nil_append, lookupShort, if_neg hnc]
          rw [if_neg (fun h => hcc.1 h.symm)]
          exact ih

theorem eventFlag_short {flags : List Flag} (hg : GoodFlags flags) {i : Nat} {f : Flag} {c : Char}
    (hi : flags[i]? = some f) (hc : f.short = some c) (arg : Option Str) : eventFlag flags (.short c arg) = some (i, arg) := by
  rw [eventFlag, findIdx_unique (i := i) hi (by simp [hc])]
  · rfl
  · intro j b hj hb
    exact short_unique hg hi hj hc (by simpa using hb)

/-! ## Runs -/

/-- `getopt` and the callbacks, from a state on. -/
def flagsRun (flags : List Flag) (p : Option OptPending) (argv : List Str) : Option (List (Nat × Option Str) × List Str) :=
  let r := getopt flags p argv
  (runEvents flags r.1).map (·, r.2)

theorem runEvents_append (flags : List Flag) (es es' : List OptEvent) :
    runEvents flags (es ++ es') =
      (runEvents flags es).bind fun a => (runEvents flags es').map (a ++ ·) := by
  induction es with
  | nil => simp [runEvents]
  | cons e es ih =>
    simp only [List.cons_append, runEvents]
    cases eventFlag flags e with
    | none => rfl
    | some c =>
      simp only [ih]
      cases runEvents flags es <;> cases runEvents flags es' <;> simp

/-- What is read from some arguments, put in front of what follows. -/
def withFront (calls : List (Nat × Option Str)) (pos : List Str)
    (r : Option (List (Nat × Option Str) × List Str)) : Option (List (Nat × Option Str) × List Str) :=
  r.map fun r => (calls ++ r.1, pos ++ r.2)

theorem withFront_withFront (c c' : List (Nat × Option Str)) (p p' : List Str)
    (r : Option (List (Nat × Option Str) × List Str)) :
    withFront c p (withFront c' p' r) = withFront (c ++ c') (p ++ p') r := by
  cases r <;> simp [withFront, List.append_assoc]

theorem run_pending {flags : List Flag} {p : OptPending} {v : Str} {rest : List Str} {c : Nat × Option Str}
    (h : eventFlag flags (p.event v) = some c) :
    flagsRun flags (some p) (v :: rest) = withFront [c] [] (flagsRun flags none rest) := by
  simp only [flagsRun, getopt, runEvents, h, withFront]
  cases runEvents flags (getopt flags none rest).1 <;> rfl

theorem run_scan {flags : List Flag} {es : List OptEvent} {p : Option OptPending} {rest : List Str}
    {cs : List (Nat × Option Str)} (h : runEvents flags es = some cs) :
    ((runEvents flags (es ++ (getopt flags p rest).1)).map fun a => (a, (getopt flags p rest).2)) =
      withFront cs [] (flagsRun flags p rest) := by
  rw [runEvents_append, h]
  simp only [flagsRun, withFront, Option.bind_some]
  cases runEvents flags (getopt flags p rest).1 <;> rfl

theorem run_long {flags : List Flag} {text : Str} (ht : text ≠ []) {rest : List Str} {cs : List (Nat × Option Str)}
    (h : runEvents flags (scanLong flags text).1 = some cs) :
    flagsRun flags none (('-' :: '-' :: text) :: rest) = withFront cs [] (flagsRun flags (scanLong flags text).2 rest) := by
  obtain ⟨t, ts, rfl⟩ := List.exists_cons_of_ne_nil ht
  rw [flagsRun, getopt]
  · exact run_scan h
  · intro h; cases h

theorem run_short {flags : List Flag} {c : Char} {text : Str} (hc : c ≠ '-') {rest : List Str}
    {cs : List (Nat × Option Str)} (h : runEvents flags (scanShort (optsShort flags) (c :: text)).1 = some cs) :
    flagsRun flags none (('-' :: c :: text) :: rest) =
      withFront cs [] (flagsRun flags (scanShort (optsShort flags) (c :: text)).2 rest) := by
  rw [flagsRun]
  have : getopt flags none (('-' :: c :: text) :: rest) =
      ((scanShort (optsShort flags) (c :: text)).1 ++ (getopt flags (scanShort (optsShort flags) (c :: text)).2 rest).1,
        (getopt flags (scanShort (optsShort flags) (c :: text)).2 rest).2) := by
    rw [getopt]
    · intro h; exact absurd h hc
    · intro h; exact absurd h hc
  rw [this]
  exact run_scan h

theorem takeWhile_name {s : Str} (h : '=' ∉ s) (r : Str) :
    (s ++ '=' :: r).takeWhile (· != '=') = s ∧ (s ++ '=' :: r).dropWhile (· != '=') = '=' :: r ∧
    s.takeWhile (· != '=') = s ∧ s.dropWhile (· != '=') = [] := by
  have hall : ∀ x ∈ s, (x != '=') = true := by
    intro x hx; simp; rintro rfl; exact h hx
  refine ⟨?_, ?_, ?_, ?_⟩
  · rw [List.takeWhile_append_of_pos hall]; simp
  · rw [List.dropWhile_append_of_pos hall]; simp
  · have := List.takeWhile_append_of_pos (l₂ := []) hall; simpa using this
  · have := List.dropWhile_append_of_pos (l₂ := []) hall; simpa using this

theorem longName_eq {flags : List Flag} {i : Nat} {f : Flag} (hi : flags[i]? = some f) : longName flags i = f.long := by
  simp [longName, hi]

theorem shortName_eq {flags : List Flag} {i : Nat} {f : Flag} {c : Char} (hi : flags[i]? = some f) (hc : f.short = some c) :
    shortName flags i = c := by
  simp [shortName, hi, hc]

theorem scan_switches {flags : List Flag} (hg : GoodFlags flags) (is : List Nat) (h : ∀ i ∈ is, IsShortSwitch flags i)
    (text : Str) {cs : List (Nat × Option Str)} (ht : runEvents flags (scanShort (optsShort flags) text).1 = some cs) :
    runEvents flags (scanShort (optsShort flags) (is.map (shortName flags) ++ text)).1 =
      some (is.map (fun i => (i, none)) ++ cs) ∧
    (scanShort (optsShort flags) (is.map (shortName flags) ++ text)).2 = (scanShort (optsShort flags) text).2 := by
  induction is with
  | nil => exact ⟨ht, rfl⟩
  | cons i is ih =>
    obtain ⟨ih1, ih2⟩ := ih (fun i hi => h i (List.mem_cons_of_mem _ hi))
    obtain ⟨f, c, hi, hc, ha⟩ := h i List.mem_cons_self
    have hl := lookupShort_name hg hi hc
    rw [ha] at hl
    simp only [List.map_cons, List.cons_append, shortName_eq hi hc, scanShort, hl]
    refine ⟨?_, ih2⟩
    simp only [runEvents, eventFlag_short hg hi hc, ih1, Option.map_some]

theorem shortName_ne {flags : List Flag} (hg : GoodFlags flags) {i : Nat} {f : Flag} {c : Char} (hi : flags[i]? = some f)
    (hc : f.short = some c) : shortName flags i ≠ '-' := by
  rw [shortName_eq hi hc]
  exact (hg.short_ok f (List.mem_of_getElem? hi) c hc).2.2.1

theorem run_switches {flags : List Flag} (hg : GoodFlags flags) (is : List Nat) (h : ∀ i ∈ is, IsShortSwitch flags i)
    (text : Str) (hne : is ≠ [] ∨ ∃ c t, text = c :: t ∧ c ≠ '-') {cs : List (Nat × Option Str)} (rest : List Str)
    (ht : runEvents flags (scanShort (optsShort flags) text).1 = some cs) :
    flagsRun flags none (('-' :: (is.map (shortName flags) ++ text)) :: rest) =
      withFront (is.map (fun i => (i, none)) ++ cs) [] (flagsRun flags (scanShort (optsShort flags) text).2 rest) := by
  obtain ⟨h1, h2⟩ := scan_switches hg is h text ht
  have : ∃ c t, is.map (shortName flags) ++ text = c :: t ∧ c ≠ '-' := by
    cases is with
    | nil =>
      rcases hne with h | ⟨c, t, h, hc⟩
      · exact absurd rfl h
      · exact ⟨c, t, h, hc⟩
    | cons i is =>
      obtain ⟨f, c, hi, hc, -⟩ := h i List.mem_cons_self
      exact ⟨_, _, rfl, shortName_ne hg hi hc⟩
  obtain ⟨c, t, e, hc⟩ := this
  rw [e] at h1 h2 ⊢
  rw [run_short hc h1, h2]

theorem run_item {flags : List Flag} (hg : GoodFlags flags) (it : Item) (hv : it.Valid flags) (rest : List Str) :
    flagsRun flags none (it.args flags ++ rest) = withFront it.sets it.rest (flagsRun flags none rest) := by
  have long_ne : ∀ {i : Nat} {f : Flag}, flags[i]? = some f → f.long ≠ [] ∧ '=' ∉ f.long :=
    fun hi => hg.long_ok _ (List.mem_of_getElem? hi)
  cases it with
  | positional s =>
    have hgo : getopt flags none (s :: rest) = ((getopt flags none rest).1, s :: (getopt flags none rest).2) := by
      rcases hv with rfl | hv
      · rfl
      · rw [getopt]
        · rintro rfl; simp at hv
        · rintro t rfl; simp at hv
        · rintro c t rfl; simp at hv
    simp only [Item.args, List.singleton_append, flagsRun, hgo, Item.sets, Item.rest, withFront]
    cases runEvents flags (getopt flags none rest).1 <;> rfl
  | longSwitch i =>
    obtain ⟨f, hi, ha⟩ := hv
    obtain ⟨h1, h2⟩ := long_ne hi
    obtain ⟨-, -, t1, t2⟩ := takeWhile_name h2 []
    have hs : scanLong flags f.long = ([.long i none], none) := by
      simp [scanLong, t1, t2, lookupLong_name hg hi, hi, ha]
    simp only [Item.args, longName_eq hi, List.singleton_append]
    rw [run_long h1 (cs := [(i, none)]) (by rw [hs]; rfl), hs]
    rfl
  | longValue i v =>
    obtain ⟨f, hi, ha⟩ := hv
    obtain ⟨h1, h2⟩ := long_ne hi
    obtain ⟨-, -, t1, t2⟩ := takeWhile_name h2 []
    have hs : scanLong flags f.long = ([], some (.long i)) := by
      simp [scanLong, t1, t2, lookupLong_name hg hi, hi, ha]
    simp only [Item.args, longName_eq hi, List.cons_append, List.nil_append]
    rw [run_long h1 (cs := []) (by rw [hs]; rfl), hs, run_pending (c := (i, some v)) rfl, withFront_withFront]
    rfl
  | longEq i v =>
    obtain ⟨f, hi, ha⟩ := hv
    obtain ⟨h1, h2⟩ := long_ne hi
    obtain ⟨t1, t2, -, -⟩ := takeWhile_name h2 v
    have hs : scanLong flags (f.long ++ '=' :: v) = ([.long i (some v)], none) := by
      simp [scanLong, t1, t2, lookupLong_name hg hi, hi, ha]
    simp only [Item.args, longName_eq hi, List.singleton_append]
    rw [run_long (by simp) (cs := [(i, some v)]) (by rw [hs]; rfl), hs]
    rfl
  | switches is =>
    have := run_switches hg is hv.2 [] (Or.inl hv.1) (cs := []) rest rfl
    simp only [List.append_nil] at this
    simp only [Item.args, List.singleton_append]
    rw [this]
    rfl
  | shortValue is i v =>
    obtain ⟨hs, f, c, hi, hc, ha⟩ := hv
    have hl := lookupShort_name hg hi hc
    rw [ha] at hl
    have hscan : scanShort (optsShort flags) [shortName flags i] = ([], some (.short c)) := by
      simp [scanShort, shortName_eq hi hc, hl]
    have := run_switches hg is hs [shortName flags i] (Or.inr ⟨_, _, rfl, shortName_ne hg hi hc⟩) (cs := []) (v :: rest)
      (by rw [hscan]; rfl)
    simp only [Item.args, List.cons_append, List.nil_append]
    rw [this, hscan, run_pending (c := (i, some v)) (eventFlag_short hg hi hc _), withFront_withFront]
    simp [Item.sets, Item.rest]
  | shortGlued is i v =>
    obtain ⟨hs, ⟨f, c, hi, hc, ha⟩, hne⟩ := hv
    have hl := lookupShort_name hg hi hc
    rw [ha] at hl
    have hscan : scanShort (optsShort flags) (shortName flags i :: v) = ([.short c (some v)], none) := by
      simp [scanShort, shortName_eq hi hc, hl, hne]
    have := run_switches hg is hs (shortName flags i :: v) (Or.inr ⟨_, _, rfl, shortName_ne hg hi hc⟩)
      (cs := [(i, some v)]) rest (by rw [hscan]; simp [runEvents, eventFlag_short hg hi hc])
    simp only [Item.args, List.singleton_append]
    rw [this, hscan]
    rfl

theorem run_items {flags : List Flag} (hg : GoodFlags flags) (items : List Item) (hv : ∀ it ∈ items, it.Valid flags)
    (rest : List Str) :
    flagsRun flags none (items.flatMap (Item.args flags) ++ rest) =
      withFront (items.flatMap Item.sets) (items.flatMap Item.rest) (flagsRun flags none rest) := by
  induction items with
  | nil =>
    simp only [List.flatMap_nil, List.nil_append, withFront]
    cases flagsRun flags none rest <;> rfl
  | cons it items ih =>
    have ih := ih (fun i hi => hv i (List.mem_cons_of_mem _ hi))
    simp only [List.flatMap_cons, List.append_assoc]
    rw [run_item hg it (hv it List.mem_cons_self), ih, withFront_withFront]

/-! ## Properties -/

/-- C45: a command line of options and other arguments in any order and any of the usual spellings sets exactly the
flags named in it, in order, with their values, and keeps everything else in order; everything after `--` is kept. -/
theorem C45_parse (flags : List Flag) (hg : GoodFlags flags) (items : List Item) (hv : ∀ it ∈ items, it.Valid flags)
    (tail : List Str) :
    flagsParse flags (items.flatMap (Item.args flags)) =
      some (items.flatMap Item.sets, items.flatMap Item.rest) ∧
    flagsParse flags (items.flatMap (Item.args flags) ++ ['-', '-'] :: tail) =
      some (items.flatMap Item.sets, items.flatMap Item.rest ++ tail) := by
  constructor
  · have := run_items hg items hv []
    rw [List.append_nil] at this
    rw [show flagsParse flags _ = flagsRun flags none _ from rfl, this]
    simp [flagsRun, getopt, runEvents, withFront]
  · rw [show flagsParse flags _ = flagsRun flags none _ from rfl, run_items hg items hv]
    simp [flagsRun, getopt, runEvents, withFront]

theorem no_question {flags : List Flag} (hg : GoodFlags flags) : eventFlag flags .bad = none := by
  rw [eventFlag, Option.map_eq_none_iff, List.findIdx?_eq_none_iff]
  intro f hf
  cases hs : f.short with
  | none => rfl
  | some c =>
    have := (hg.short_ok f hf c hs).2.2.2
    simpa using this

theorem run_bad {flags : List Flag} (hg : GoodFlags flags) (es es' : List OptEvent) (h : OptEvent.bad ∈ es) :
    runEvents flags (es ++ es') = none := by
  induction es with
  | nil => cases h
  | cons e es ih =>
    simp only [List.cons_append, runEvents]
    rcases List.mem_cons.1 h with rfl | h
    · rw [no_question hg]
    · cases eventFlag flags e with
      | none => rfl
      | some c => simp [ih h]

/-- C45: an unknown option is an error, wherever it stands. -/
theorem C45_unknown (flags : List Flag) (hg : GoodFlags flags) (items : List Item) (hv : ∀ it ∈ items, it.Valid flags)
    (rest : List Str) :
    (∀ text, text ≠ [] → (∀ f ∈ flags, ¬ text.takeWhile (· != '=') <+: f.long) →
      flagsParse flags (items.flatMap (Item.args flags) ++ ('-' :: '-' :: text) :: rest) = none) ∧
    (∀ c text, c ≠ '-' → (∀ f ∈ flags, f.short ≠ some c) → 
      flagsParse flags (items.flatMap (Item.args flags) ++ ('-' :: c :: text) :: rest) = none) := by
  have hmap : ∀ argv, flagsRun flags none argv = none → withFront (items.flatMap Item.sets) (items.flatMap Item.rest)
      (flagsRun flags none argv) = none := by intro argv h; rw [h]; rfl
  constructor
  · intro text ht hno
    rw [show flagsParse flags _ = flagsRun flags none _ from rfl, run_items hg items hv]
    apply hmap
    have hfind : ∀ p : Flag → Bool, (∀ f, p f = true → text.takeWhile (· != '=') <+: f.long) → flags.findIdx? p = none := by
      intro p hp
      rw [List.findIdx?_eq_none_iff]
      intro f hf
      by_cases h : p f = true
      · exact absurd (hp f h) (hno f hf)
      · simpa using h
    have hl : lookupLong flags (text.takeWhile (· != '=')) = none := by
      have h1 := hfind (fun f => f.long == text.takeWhile (· != '=')) (by
        intro f hf
        simp only [beq_iff_eq] at hf
        rw [hf]; exact List.prefix_refl _)
      have h2 := hfind (fun f => (text.takeWhile (· != '=')).isPrefixOf f.long) (by
        intro f hf
        exact List.isPrefixOf_iff_prefix.1 hf)
      rw [lookupLong, h1]
      simp only [lookupAbbrev, h2]
    have hs : scanLong flags text = ([.bad], none) := by simp only [scanLong, hl]
    obtain ⟨t, ts, rfl⟩ := List.exists_cons_of_ne_nil ht
    rw [flagsRun, getopt, hs]
    · simp only
      rw [run_bad hg _ _ (by simp)]
      rfl
    · intro h; cases h
  · intro c text hc hno
    rw [show flagsParse flags _ = flagsRun flags none _ from rfl, run_items hg items hv]
    apply hmap
    have hl : ∀ fs : List Flag, (∀ f ∈ fs, f.short ≠ some c) → lookupShort c (optsShort fs) = none := by
      intro fs hfs
      by_cases hcc : c = ':' ∨ c = ';'
      · cases h : optsShort fs with
        | nil => rfl
        | cons d r => rw [lookupShort, if_pos hcc]
      induction fs with
      | nil => rfl
      | cons f fs ih =>
        have ih := ih (fun f hf => hfs f (List.mem_cons_of_mem _ hf))
        have hf := hfs f List.mem_cons_self
        simp only [optsShort, List.flatMap_cons] at ih ⊢
        cases hs : f.short with
        | none => simpa using ih
        | some d =>
          have hd : d ≠ c := by rintro rfl; exact hf hs
          have h2 : ':' ≠ c := by rintro rfl; exact hcc (Or.inl rfl)
          cases f.hasArg <;> simp [lookupShort, hcc, hd, h2] <;> simpa using ih
    have hmem : OptEvent.bad ∈ (scanShort (optsShort flags) (c :: text)).1 := by
      simp [scanShort, hl flags hno]
    rw [flagsRun]
    have : getopt flags none (('-' :: c :: text) :: rest) =
        ((scanShort (optsShort flags) (c :: text)).1 ++ (getopt flags (scanShort (optsShort flags) (c :: text)).2 rest).1,
          (getopt flags (scanShort (optsShort flags) (c :: text)).2 rest).2) := by
      rw [getopt]
      · intro h; exact absurd h hc
      · intro h; exact absurd h hc
    rw [this]
    simp only
    rw [run_bad hg _ _ hmem]
    rfl

/-- C45: a flag that takes a value and stands at the end of the command line without one is an error. -/
theorem C45_missing_value (flags : List Flag) (hg : GoodFlags flags) (items : List Item) (hv : ∀ it ∈ items, it.Valid flags)
    (i : Nat) (f : Flag) (hi : flags[i]? = some f) (ha : f.hasArg = true) :
    flagsParse flags (items.flatMap (Item.args flags) ++ ['-' :: '-' :: f.long]) = none ∧
    (∀ c, f.short = some c → flagsParse flags (items.flatMap (Item.args flags) ++ [['-', c]]) = none) := by
  have hpend : ∀ p : OptPending, flagsRun flags (some p) [] = none := by
    intro p
    simp [flagsRun, getopt, runEvents, no_question hg]
  constructor
  · rw [show flagsParse flags _ = flagsRun flags none _ from rfl, run_items hg items hv]
    obtain ⟨h1, h2⟩ := hg.long_ok _ (List.mem_of_getElem? hi)
    obtain ⟨-, -, t1, t2⟩ := takeWhile_name h2 []
    have hs : scanLong flags f.long = ([], some (.long i)) := by
      simp [scanLong, t1, t2, lookupLong_name hg hi, hi, ha]
    rw [run_long h1 (cs := []) (by rw [hs]; rfl), hs, hpend]
    rfl
  · intro c hc
    rw [show flagsParse flags _ = flagsRun flags none _ from rfl, run_items hg items hv]
    have hl := lookupShort_name hg hi hc
    rw [ha] at hl
    have hscan : scanShort (optsShort flags) [c] = ([], some (.short c)) := by simp [scanShort, hl]
    have hne := shortName_ne hg hi hc
    rw [shortName_eq hi hc] at hne
    rw [run_short hne (cs := []) (by rw [hscan]; rfl), hscan, hpend]
    rfl

/-- C45: a switch given a value with `=` is an error. -/
theorem C45_switch_value (flags : List Flag) (hg : GoodFlags flags) (items : List Item) (hv : ∀ it ∈ items, it.Valid flags)
    (rest : List Str) (i : Nat) (f : Flag) (hi : flags[i]? = some f) (ha : f.hasArg = false) (v : Str) :
    flagsParse flags (items.flatMap (Item.args flags) ++ ('-' :: '-' :: (f.long ++ '=' :: v)) :: rest) = none := by
  rw [show flagsParse flags _ = flagsRun flags none _ from rfl, run_items hg items hv]
  obtain ⟨h1, h2⟩ := hg.long_ok _ (List.mem_of_getElem? hi)
  obtain ⟨t1, t2, -, -⟩ := takeWhile_name h2 v
  have hs : scanLong flags (f.long ++ '=' :: v) = ([.bad], none) := by
    simp [scanLong, t1, t2, lookupLong_name hg hi, hi, ha]
  have hne : f.long ++ '=' :: v ≠ [] := by simp
  generalize f.long ++ '=' :: v = text at *
  obtain ⟨t, ts, rfl⟩ := List.exists_cons_of_ne_nil hne
  have : flagsRun flags none (('-' :: '-' :: t :: ts) :: rest) = none := by
    rw [flagsRun, getopt, hs]
    · simp only
      rw [run_bad hg _ _ (by simp)]
      rfl
    · intro h; cases h
  rw [this]; rfl

/-- C45: the variables behind the flags.  A string has the last value given, or its default; a list has all values in
order; a switch is on if it was given. -/
theorem C45_values (i : Nat) (calls : List (Nat × Option Str)) (s : Str) (b : Bool) :
    stringFlag i s calls = (((calls.filter (·.1 == i)).map fun c => c.2.getD []).getLast?).getD s ∧
    stringvFlag i [] calls = (calls.filter (·.1 == i)).map (fun c => c.2.getD []) ∧
    (switchFlag i b calls = true ↔ b = true ∨ ∃ v, (i, v) ∈ calls) := by
  refine ⟨?_, ?_, ?_⟩
  · induction calls generalizing s with
    | nil => rfl
    | cons c cs ih =>
      simp only [stringFlag, List.foldl_cons] at ih ⊢
      by_cases h : c.1 = i
      · rw [if_pos h, ih]; simp [h, List.getLast?_cons]
      · rw [if_neg h, ih]; simp [h]
  · have : ∀ init, stringvFlag i init calls = init ++ (calls.filter (·.1 == i)).map (fun c => c.2.getD []) := by
      induction calls with
      | nil => intro init; simp [stringvFlag]
      | cons c cs ih =>
        intro init
        simp only [stringvFlag, List.foldl_cons] at ih ⊢
        by_cases h : c.1 = i
        · rw [if_pos h, ih]; simp [h]
        · rw [if_neg h, ih]; simp [h]
    simpa using this []
  · induction calls generalizing b with
    | nil => simp [switchFlag]
    | cons c cs ih =>
      simp only [switchFlag, List.foldl_cons] at ih ⊢
      rw [ih]
      by_cases h : c.1 = i
      · rw [if_pos h]
        simp only [true_or, List.mem_cons, true_iff]
        exact Or.inr ⟨c.2, Or.inl (by rw [← h])⟩
      · rw [if_neg h]
        constructor
        · rintro (h' | ⟨v, hv⟩)
          · exact Or.inl h'
          · exact Or.inr ⟨v, List.mem_cons_of_mem _ hv⟩
        · rintro (h' | ⟨v, hv⟩)
          · exact Or.inl h'
          · rcases List.mem_cons.1 hv with rfl | hv
            · exact absurd rfl h
            · exact Or.inr ⟨v, hv⟩

end Clip
