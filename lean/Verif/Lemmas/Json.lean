import Verif.Model.GeoJson
import Verif.Spec.Json
/-! # Lemmas about JSON and GeoJSON -/
set_option linter.unusedSimpArgs false
namespace Clip
open JsonSpec

/-! ## The string loop -/

theorem jsonString_eof_diverges (acc : Str) : Diverges jsonStringStep ([], acc) :=
  Diverges.of_invariant (fun s => s.1 = []) (by
    rintro ⟨s, a⟩ h
    simp only at h; subst h
    exact ⟨_, rfl, rfl⟩) rfl

theorem jsonStringStep_other (c : Char) (r acc : Str) (h1 : c ≠ '"') (h2 : c ≠ '\x00') (h3 : c ≠ '\\') :
    jsonStringStep (c :: r, acc) = .inl (r, acc ++ [c]) := by
  unfold jsonStringStep
  split <;> simp_all

theorem jsonString_spec (s acc : Str) :
    (∀ t r, jsonString s acc = .closed t r → Returns jsonStringStep (s, acc) (some (t, r))) ∧
    (jsonString s acc = .nul → Returns jsonStringStep (s, acc) none) ∧
    (jsonString s acc = .loops → Diverges jsonStringStep (s, acc)) := by
  fun_induction jsonString s acc with
  | case1 acc => exact ⟨by simp, by simp, fun _ => jsonString_eof_diverges acc⟩
  | case2 acc =>
    refine ⟨by simp, by simp, fun _ => ?_⟩
    have hs : jsonStringStep (['\\'], acc) = .inl ([], acc ++ ['\\', '\xff']) := rfl
    exact (Diverges.of_step hs).2 (jsonString_eof_diverges _)
  | case3 c r acc ih =>
    have hs : jsonStringStep ('\\' :: c :: r, acc) = .inl (r, acc ++ ['\\', c]) := rfl
    exact ⟨fun t r' h => (Returns.of_step hs).2 (ih.1 t r' h), fun h => (Returns.of_step hs).2 (ih.2.1 h),
      fun h => (Diverges.of_step hs).2 (ih.2.2 h)⟩
  | case4 acc r _ =>
    refine ⟨?_, by simp, by simp⟩
    intro t r' h
    cases h
    exact Returns.of_done rfl
  | case5 acc r =>
    exact ⟨by simp, fun _ => Returns.of_done rfl, by simp⟩
  | case6 c r acc h1 h2 h3 h4 ih =>
    have hb : c ≠ '\\' := by
      rintro rfl
      cases r with
      | nil => exact h1 rfl rfl
      | cons a b => exact h2 a b rfl rfl
    have hs := jsonStringStep_other c r acc h3 h4 hb
    exact ⟨fun t r' h => (Returns.of_step hs).2 (ih.1 t r' h), fun h => (Returns.of_step hs).2 (ih.2.1 h),
      fun h => (Diverges.of_step hs).2 (ih.2.2 h)⟩

theorem jsonString_raw (t r acc : Str) (h : RawString t) :
    jsonString (t ++ '"' :: r) acc = .closed (acc ++ t) r := by
  fun_induction RawString t generalizing acc with
  | case1 => simp [jsonString]
  | case2 => exact absurd h (by simp)
  | case3 c t ih =>
    have := ih (acc ++ ['\\', c]) h
    simp only [List.cons_append]
    rw [jsonString, this]; simp
  | case4 c t h1 h2 ih =>
    obtain ⟨a, b, hr⟩ := h
    have hb : c ≠ '\\' := by
      rintro rfl
      cases t with
      | nil => exact h1 rfl rfl
      | cons a b => exact h2 a b rfl rfl
    have := ih (acc ++ [c]) hr
    simp only [List.cons_append]
    rw [jsonString, if_neg a, if_neg b, this]
    · simp
    · intro h; exact absurd h hb
    · intro c' r' h; exact absurd h hb

theorem numberStart_iff (c : Char) : isNumStart c = true ↔ numberStart c := by
  unfold isNumStart numberStart Char.isDigit
  simp only [Bool.or_eq_true, Bool.and_eq_true, decide_eq_true_eq, ge_iff_le]
  rfl

theorem numberChar_iff (c : Char) : isNumChar c = true ↔ numberChar c := by
  unfold isNumChar numberChar Char.isDigit
  simp only [Bool.or_eq_true, Bool.and_eq_true, decide_eq_true_eq, ge_iff_le, or_assoc]
  rfl

theorem jsonNumber_end (s acc : Str) (h : NumberEnd s) : ∃ r, jsonNumber s acc = some (acc, r) ∧
    s = List.replicate (s.length - r.length) ' ' ++ r := by
  obtain ⟨c, r, hd, hc, h0⟩ := h
  induction s with
  | nil => simp at hd
  | cons a s ih =>
    rw [List.dropWhile_cons] at hd
    split at hd
    · rename_i ha
      have ha : a = ' ' := by simpa using ha
      obtain ⟨r', h1, h2⟩ := ih hd
      refine ⟨r', ?_, ?_⟩
      · subst ha; simpa [jsonNumber, show isNumChar ' ' = false from by decide] using h1
      · have : r'.length ≤ s.length := by
          rw [h2]; simp
        have e : (a :: s).length - r'.length = (s.length - r'.length) + 1 := by simp; omega
        rw [e, List.replicate_succ, List.cons_append, ← h2, ha]
    · rename_i ha
      have ha : a ≠ ' ' := by simpa using ha
      cases hd
      refine ⟨c :: r, ?_, by simp⟩
      have : isNumChar c = false := by
        rw [← numberChar_iff] at hc; simpa using hc
      simp [jsonNumber, this, ha, h0]

theorem jsonNumber_text (w s acc : Str) (hw : ∀ c ∈ w, numberChar c) :
    jsonNumber (w ++ s) acc = jsonNumber s (acc ++ w) := by
  induction w generalizing acc with
  | nil => simp
  | cons c w ih =>
    have hc : isNumChar c = true := (numberChar_iff c).2 (hw c (by simp))
    rw [List.cons_append, jsonNumber, if_pos hc, ih _ (fun x hx => hw x (by simp [hx]))]
    simp

theorem lex_sep (c : Char) (s : Str) (h : c = ':' ∨ c = ',' ∨ c = ' ' ∨ c = '\n' ∨ c = '\r' ∨ c = '\t') :
    lex (c :: s) = lex s := by
  rw [lex]
  rcases h with rfl | rfl | rfl | rfl | rfl | rfl <;> simp

theorem lex_blanks (n : Nat) (s : Str) : lex (List.replicate n ' ' ++ s) = lex s := by
  induction n with
  | zero => simp
  | succ n ih => rw [List.replicate_succ, List.cons_append, lex_sep _ _ (by simp), ih]

theorem lex_num (w s : Str) (hw : NumberText w) (hs : NumberEnd s) :
    lex (w ++ s) = (lex s).push (.tok (.num w)) := by
  obtain ⟨⟨c, r, rfl, hc⟩, hall⟩ := hw
  obtain ⟨s', h1, h2⟩ := jsonNumber_end s ([] ++ c :: r) hs
  have hn : isNumStart c = true := (numberStart_iff c).2 hc
  have e : lex s = lex s' := by rw [h2]; exact lex_blanks _ _
  have hj : jsonNumber (c :: (r ++ s)) [] = some (c :: r, s') := by
    have := jsonNumber_text (c :: r) s [] hall
    rw [h1] at this
    simpa using this
  rw [e, List.cons_append, lex]
  have q : ∀ a : Char, isNumStart a = false → c ≠ a := fun a ha h => by rw [h, ha] at hn; cases hn
  rw [if_neg (q _ (by decide)), if_neg (q _ (by decide)), if_neg (q _ (by decide)), if_neg (q _ (by decide)),
    if_neg (by
      rintro (h | h | h | h | h | h) <;> exact q _ (by decide) h), dif_pos hn]
  split
  · rename_i t r' h
    rw [hj] at h; cases h; rfl
  · rename_i h
    rw [hj] at h; cases h

theorem lex_str (t s : Str) (ht : RawString t) : lex ('"' :: (t ++ '"' :: s)) = (lex s).push (.tok (.str t)) := by
  have hj := jsonString_raw t s [] ht
  rw [lex]
  simp only [List.nil_append] at hj
  rw [if_neg (by decide), if_neg (by decide), if_neg (by decide), if_neg (by decide), if_neg (by decide),
    dif_neg (by decide), if_pos rfl]
  split <;> rename_i h <;> rw [hj] at h <;> cases h
  rfl

theorem lex_other (t : JTok) (s : Str) (h1 : ∀ w, t ≠ .num w) (h2 : ∀ w, t ≠ .str w) :
    lex (tokenText t ++ s) = (lex s).push (.tok t) := by
  cases t with
  | num w => exact absurd rfl (h1 w)
  | str w => exact absurd rfl (h2 w)
  | objBegin => rw [tokenText, List.cons_append, lex]; simp
  | objEnd => rw [tokenText, List.cons_append, lex]; simp
  | arrBegin => rw [tokenText, List.cons_append, lex]; simp
  | arrEnd => rw [tokenText, List.cons_append, lex]; simp
  | true_ =>
    rw [tokenText, List.cons_append, lex]
    simp [show isNumStart 't' = false from by decide]
  | false_ =>
    rw [tokenText, List.cons_append, lex]
    simp [show isNumStart 'f' = false from by decide]
  | null =>
    rw [tokenText, List.cons_append, lex]
    simp [show isNumStart 'n' = false from by decide]

theorem lex_written {ts : List JTok} {s : Str} (h : Written ts s) : lex s = ⟨ts.map .tok, .error⟩ := by
  induction h with
  | nil => rw [lex]; rfl
  | sep hc _ ih => rw [lex_sep _ _ hc, ih]
  | num hw hs _ ih => rw [lex_num _ _ hw hs, ih]; rfl
  | str ht _ ih => rw [lex_str _ _ ht, ih]; rfl
  | other h1 h2 _ ih => rw [lex_other _ _ h1 h2, ih]; rfl

/-! ## Skipping values -/

mutual
theorem skip_value (fin : JEnd) (v : Json) (n : Nat) (rest : List JItem)
    (hn : (v.tokens.map JItem.tok ++ rest).length < n) :
    jsonSkip fin n (v.tokens.map .tok ++ rest) = .ok () rest := by
  cases v with
  | null => rfl
  | bool b => cases b <;> rfl
  | num w => rfl
  | str w => rfl
  | arr a =>
    simp only [Json.tokens, List.map_cons, List.map_append, List.cons_append, List.append_assoc, List.map_nil,
      List.nil_append, List.length_cons, List.length_append, List.length_map] at hn ⊢
    simp only [jsonSkip, jsonNext]
    exact skip_array fin a n rest (by simp only [List.length_cons, List.length_append, List.length_map]; omega)
  | obj o =>
    simp only [Json.tokens, List.map_cons, List.map_append, List.cons_append, List.append_assoc, List.map_nil,
      List.nil_append, List.length_cons, List.length_append, List.length_map] at hn ⊢
    simp only [jsonSkip, jsonNext]
    exact skip_object fin o n rest (by simp only [List.length_cons, List.length_append, List.length_map]; omega)
theorem skip_array (fin : JEnd) (a : Array_) (n : Nat) (rest : List JItem)
    (hn : (a.tokens.map JItem.tok ++ .tok .arrEnd :: rest).length < n) :
    jsonSkipArray fin n (a.tokens.map .tok ++ .tok .arrEnd :: rest) = .ok () rest := by
  obtain ⟨n, rfl⟩ : ∃ m, n = m + 1 := ⟨n - 1, by omega⟩
  cases a with
  | nil => rfl
  | cons v a =>
    have hv := skip_value fin v n (a.tokens.map .tok ++ .tok .arrEnd :: rest)
    have ha := skip_array fin a n rest
    simp only [Array_.tokens, List.map_append, List.append_assoc, List.length_append, List.length_cons, List.length_map] at hn hv ha ⊢
    cases v with
    | null | num | str =>
      simp only [Json.tokens, List.map_cons, List.map_nil, List.length_cons, List.length_nil, List.cons_append, List.nil_append] at hn ⊢
      simp only [jsonSkipArray, jsonNext]
      exact ha (by omega)
    | bool b =>
      cases b <;>
      · simp only [Json.tokens, List.map_cons, List.map_nil, List.length_cons, List.length_nil, List.cons_append, List.nil_append] at hn ⊢
        simp only [jsonSkipArray, jsonNext]
        exact ha (by omega)
    | arr b =>
      have hb := skip_array fin b n (a.tokens.map .tok ++ .tok .arrEnd :: rest)
      simp only [Json.tokens, List.map_cons, List.map_append, List.cons_append, List.append_assoc, List.map_nil,
        List.nil_append, List.length_cons, List.length_append, List.length_map, List.length_nil] at hn hb ⊢
      simp only [jsonSkipArray, jsonNext]
      rw [hb (by omega)]
      exact ha (by omega)
    | obj o =>
      have hb := skip_object fin o n (a.tokens.map .tok ++ .tok .arrEnd :: rest)
      simp only [Json.tokens, List.map_cons, List.map_append, List.cons_append, List.append_assoc, List.map_nil,
        List.nil_append, List.length_cons, List.length_append, List.length_map, List.length_nil] at hn hb ⊢
      simp only [jsonSkipArray, jsonNext]
      rw [hb (by omega)]
      exact ha (by omega)
theorem skip_object (fin : JEnd) (o : Members) (n : Nat) (rest : List JItem)
    (hn : (o.tokens.map JItem.tok ++ .tok .objEnd :: rest).length < n) :
    jsonSkipObject fin n (o.tokens.map .tok ++ .tok .objEnd :: rest) = .ok () rest := by
  obtain ⟨n, rfl⟩ : ∃ m, n = m + 1 := ⟨n - 1, by omega⟩
  cases o with
  | nil => rfl
  | cons k v a =>
    have ha := skip_object fin a n rest
    simp only [Members.tokens, List.map_cons, List.cons_append, List.map_append, List.append_assoc, List.length_append, List.length_cons, List.length_map] at hn ha ⊢
    cases v with
    | null | num | str =>
      simp only [Json.tokens, List.map_cons, List.map_nil, List.length_cons, List.length_nil, List.cons_append, List.nil_append] at hn ⊢
      simp only [jsonSkipObject, jsonNext]
      exact ha (by omega)
    | bool b =>
      cases b <;>
      · simp only [Json.tokens, List.map_cons, List.map_nil, List.length_cons, List.length_nil, List.cons_append, List.nil_append] at hn ⊢
        simp only [jsonSkipObject, jsonNext]
        exact ha (by omega)
    | arr b =>
      have hb := skip_array fin b n (a.tokens.map .tok ++ .tok .objEnd :: rest)
      simp only [Json.tokens, List.map_cons, List.map_append, List.cons_append, List.append_assoc, List.map_nil,
        List.nil_append, List.length_cons, List.length_append, List.length_map, List.length_nil] at hn hb ⊢
      simp only [jsonSkipObject, jsonNext]
      rw [hb (by omega)]
      exact ha (by omega)
    | obj o =>
      have hb := skip_object fin o n (a.tokens.map .tok ++ .tok .objEnd :: rest)
      simp only [Json.tokens, List.map_cons, List.map_append, List.cons_append, List.append_assoc, List.map_nil,
        List.nil_append, List.length_cons, List.length_append, List.length_map, List.length_nil] at hn hb ⊢
      simp only [jsonSkipObject, jsonNext]
      rw [hb (by omega)]
      exact ha (by omega)
end


/-! ## Coordinates -/

section
variable {ν : Type}

/-- The coordinates of a sequence of things at level `k`, the first one starting with `rlevel` `r`. -/
def seqCoords {α : Type} (c : Nat → Nat → α → List (GeoCoord ν)) (k r : Nat) : List α → List (GeoCoord ν)
  | [] => []
  | a :: as => c k r a ++ seqCoords c k k as

def posCoords (val : Str → ν) (k r : Nat) (p : Pos) : List (GeoCoord ν) := [(val p.1, r), (val p.2, k + 1)]

/-- The tokens `f a` read at level `k` yield the coordinates `c k r a`. -/
def Reads (fin : JEnd) (num : Str → Option ν) {α : Type} (good : α → Prop) (f : α → List JTok)
    (c : Nat → Nat → α → List (GeoCoord ν)) : Prop :=
  ∀ k r acc a rest, good a →
    geoCoordsLoop fin num k r acc ((f a).map .tok ++ rest) = geoCoordsLoop fin num k k (acc ++ c k r a) rest

theorem reads_pos (fin : JEnd) (num : Str → Option ν) (val : Str → ν) :
    Reads fin num (fun p : Pos => num p.1 = some (val p.1) ∧ num p.2 = some (val p.2)) posTokens
      (posCoords val) := by
  intro k r acc p rest ⟨h1, h2⟩
  simp [posTokens, geoCoordsLoop, h1, h2, posCoords]

theorem reads_seq {fin : JEnd} {num : Str → Option ν} {α : Type} {good : α → Prop} {f : α → List JTok}
    {c : Nat → Nat → α → List (GeoCoord ν)} (h : Reads fin num good f c) (k r : Nat) (acc : List (GeoCoord ν))
    (l : List α) (hl : ∀ a ∈ l, good a) (rest : List JItem) :
    geoCoordsLoop fin num k r acc ((l.flatMap f).map .tok ++ .tok .arrEnd :: rest) =
      if k = 0 then .ok (acc ++ seqCoords c k r l) rest
      else geoCoordsLoop fin num (k - 1) (k - 1) (acc ++ seqCoords c k r l) rest := by
  induction l generalizing r acc with
  | nil => simp [geoCoordsLoop, seqCoords]
  | cons a l ih =>
    rw [List.flatMap_cons, List.map_append, List.append_assoc, h k r acc a _ (hl a (by simp)),
      ih k _ (fun x hx => hl x (by simp [hx]))]
    simp [seqCoords]

theorem reads_list {fin : JEnd} {num : Str → Option ν} {α : Type} {good : α → Prop} {f : α → List JTok}
    {c : Nat → Nat → α → List (GeoCoord ν)} (h : Reads fin num good f c) :
    Reads fin num (fun l => ∀ a ∈ l, good a) (listTokens f) (fun k r l => seqCoords c (k + 1) r l) := by
  intro k r acc l rest hl
  have := reads_seq h (k + 1) r acc l hl rest
  simp only [Nat.add_eq_zero_iff, Nat.one_ne_zero, and_false, if_false, Nat.add_sub_cancel] at this
  simpa [listTokens, geoCoordsLoop] using this

theorem readCoords_list {fin : JEnd} {num : Str → Option ν} {α : Type} {good : α → Prop} {f : α → List JTok}
    {c : Nat → Nat → α → List (GeoCoord ν)} (h : Reads fin num good f c) (acc : List (GeoCoord ν)) (l : List α)
    (hl : ∀ a ∈ l, good a) (rest : List JItem) :
    geoReadCoords fin num acc ((listTokens f l).map .tok ++ rest) = .ok (acc ++ seqCoords c 0 0 l) rest := by
  have := reads_seq h 0 0 acc l hl rest
  simpa [listTokens, geoReadCoords, jsonExpect, jsonNext] using this

variable [Zero ν]

theorem seq_pos (val : Str → ν) (k r : Nat) (p : Pos) (ps : List Pos) :
    seqCoords (posCoords val) k r (p :: ps) =
      (val p.1, r) :: (val p.2, k + 1) :: seqCoords (posCoords val) k k ps := rfl

theorem lineLoop_pos (val : Str → ν) (ps : List Pos) (acc : List (V3 ν)) :
    geoLineLoop acc (seqCoords (posCoords val) 0 0 ps) = .ok (acc ++ ps.map (posV3 val)) := by
  induction ps generalizing acc with
  | nil => simp [seqCoords, geoLineLoop]
  | cons p ps ih =>
    have hn : nextLevelIs 1 (seqCoords (posCoords val) 0 0 ps) = none := by
      cases ps <;> simp [seqCoords, posCoords, nextLevelIs]
    rw [seq_pos, geoLineLoop, hn, if_neg (by simp)]
    simp only
    rw [ih]; simp [posV3]

theorem pushLast_append {α : Type} (a : List (List α)) (b : List α) (v : α) :
    pushLast (a ++ [b]) v = a ++ [b ++ [v]] := by
  induction a with
  | nil => rfl
  | cons x a ih => cases a <;> simp_all [pushLast]

theorem modifyLast_append {α : Type} (f : α → α) (a : List α) (b : α) : modifyLast f (a ++ [b]) = a ++ [f b] := by
  induction a with
  | nil => rfl
  | cons x a ih => cases a <;> simp_all [modifyLast]

theorem nextLevelIs_seq (val : Str → ν) (k r m : Nat) (ps : List Pos) (rest : List (GeoCoord ν)) (hr : r ≠ m)
    (hrest : nextLevelIs m rest = none) : nextLevelIs m (seqCoords (posCoords val) k r ps ++ rest) = none := by
  cases ps with
  | nil => exact hrest
  | cons p ps => simp [seq_pos, nextLevelIs, hr]

abbrev ringCoords (val : Str → ν) (k r : Nat) (l : List Pos) : List (GeoCoord ν) :=
  seqCoords (posCoords val) (k + 1) r l

theorem nextLevelIs_rings (val : Str → ν) (k r m : Nat) (rs : List (List Pos)) (hne : ∀ r ∈ rs, r ≠ [])
    (rest : List (GeoCoord ν)) (hr : r ≠ m) (hrest : nextLevelIs m rest = none) :
    nextLevelIs m (seqCoords (ringCoords val) k r rs ++ rest) = none := by
  cases rs with
  | nil => exact hrest
  | cons l rs =>
    cases l with
    | nil => exact absurd rfl (hne [] (by simp))
    | cons p ps => rw [seqCoords, ringCoords, seq_pos]; simp [nextLevelIs, hr]

/-- The positions of a ring that are not the first one. -/
theorem polygonLoop_ring (val : Str → ν) (ps : List Pos) (a : List (List (V3 ν))) (b : List (V3 ν))
    (rest : List (GeoCoord ν)) (hrest : nextLevelIs 2 rest = none) :
    geoPolygonLoop (a ++ [b]) (seqCoords (posCoords val) 1 1 ps ++ rest) =
      geoPolygonLoop (a ++ [b ++ ps.map (posV3 val)]) rest := by
  induction ps generalizing b with
  | nil => simp [seqCoords]
  | cons p ps ih =>
    have hn := nextLevelIs_seq val 1 1 2 ps rest (by decide) hrest
    rw [seq_pos, List.cons_append, List.cons_append, geoPolygonLoop]
    simp only [hn, Nat.one_ne_zero, if_false, ne_eq, not_true_eq_false, List.append_eq_nil_iff, List.cons_ne_self,
      and_false, or_self, pushLast_append]
    rw [ih]; simp [posV3]

theorem polygonLoop_rings (val : Str → ν) (rs : List (List Pos)) (hne : ∀ r ∈ rs, r ≠ []) (a : List (List (V3 ν))) :
    geoPolygonLoop a (seqCoords (ringCoords val) 0 0 rs) = .ok (a ++ rs.map (·.map (posV3 val))) := by
  induction rs generalizing a with
  | nil => simp [seqCoords, geoPolygonLoop]
  | cons r rs ih =>
    have hne' : ∀ r ∈ rs, r ≠ [] := fun x hx => hne x (by simp [hx])
    have hrest : nextLevelIs 2 (seqCoords (ringCoords val) 0 0 rs) = none := by
      have := nextLevelIs_rings val 0 0 2 rs hne' [] (by decide) rfl
      simpa using this
    cases r with
    | nil => exact absurd rfl (hne [] (by simp))
    | cons p ps =>
      have hn := nextLevelIs_seq val 1 1 2 ps _ (by decide) hrest
      rw [seqCoords, ringCoords, seq_pos, List.cons_append, List.cons_append, geoPolygonLoop]
      simp only [hn, if_true, ne_eq, not_true_eq_false, List.append_eq_nil_iff, List.cons_ne_self,
        and_false, or_self, pushLast_append, if_false, List.nil_append]
      rw [polygonLoop_ring val ps a _ _ hrest, ih hne']
      simp [posV3]

theorem multiLineLoop_ring (val : Str → ν) (ps : List Pos) (a : List (List (V3 ν))) (b : List (V3 ν))
    (rest : List (GeoCoord ν)) (hrest : nextLevelIs 2 rest = none) :
    geoMultiLineLoop (a ++ [b]) (seqCoords (posCoords val) 1 1 ps ++ rest) =
      geoMultiLineLoop (a ++ [b ++ ps.map (posV3 val)]) rest := by
  induction ps generalizing b with
  | nil => simp [seqCoords]
  | cons p ps ih =>
    have hn := nextLevelIs_seq val 1 1 2 ps rest (by decide) hrest
    rw [seq_pos, List.cons_append, List.cons_append, geoMultiLineLoop]
    simp only [hn, Nat.one_ne_zero, if_false, ne_eq, not_true_eq_false, List.append_eq_nil_iff, List.cons_ne_self,
      and_false, or_self, pushLast_append]
    rw [ih]; simp [posV3]

theorem multiLineLoop_rings (val : Str → ν) (rs : List (List Pos)) (hne : ∀ r ∈ rs, r ≠ [])
    (a : List (List (V3 ν))) :
    geoMultiLineLoop a (seqCoords (ringCoords val) 0 0 rs) = .ok (a ++ rs.map (·.map (posV3 val))) := by
  induction rs generalizing a with
  | nil => simp [seqCoords, geoMultiLineLoop]
  | cons r rs ih =>
    have hne' : ∀ r ∈ rs, r ≠ [] := fun x hx => hne x (by simp [hx])
    have hrest : nextLevelIs 2 (seqCoords (ringCoords val) 0 0 rs) = none := by
      have := nextLevelIs_rings val 0 0 2 rs hne' [] (by decide) rfl
      simpa using this
    cases r with
    | nil => exact absurd rfl (hne [] (by simp))
    | cons p ps =>
      have hn := nextLevelIs_seq val 1 1 2 ps _ (by decide) hrest
      rw [seqCoords, ringCoords, seq_pos, List.cons_append, List.cons_append, geoMultiLineLoop]
      simp only [hn, if_true, ne_eq, not_true_eq_false, List.append_eq_nil_iff, List.cons_ne_self,
        and_false, or_self, pushLast_append, if_false, List.nil_append]
      rw [multiLineLoop_ring val ps a _ _ hrest, ih hne']
      simp [posV3]

/-! Multipolygons: `a` complete polygons, `b` complete rings of the last polygon, `c` the last ring. -/

theorem multiPolygonLoop_ring (val : Str → ν) (ps : List Pos) (a : List (List (List (V3 ν)))) (b : List (List (V3 ν)))
    (c : List (V3 ν)) (rest : List (GeoCoord ν)) (hrest : nextLevelIs 3 rest = none) :
    geoMultiPolygonLoop (a ++ [b ++ [c]]) (seqCoords (posCoords val) 2 2 ps ++ rest) =
      geoMultiPolygonLoop (a ++ [b ++ [c ++ ps.map (posV3 val)]]) rest := by
  induction ps generalizing c with
  | nil => simp [seqCoords]
  | cons p ps ih =>
    have hn := nextLevelIs_seq val 2 2 3 ps rest (by decide) hrest
    rw [seq_pos, List.cons_append, List.cons_append, geoMultiPolygonLoop]
    simp only [hn, show ¬ (2 = 0) from by decide, show ¬ (2 = 1) from by decide, false_and, if_false, ne_eq, not_true_eq_false,
      List.append_eq_nil_iff, List.cons_ne_self, and_false, or_self, modifyLast_append, pushLast_append]
    rw [ih]; simp [posV3]

/-- The rings of a polygon that are not the first one. -/
theorem multiPolygonLoop_rings (val : Str → ν) (rs : List (List Pos)) (hne : ∀ r ∈ rs, r ≠ [])
    (a : List (List (List (V3 ν)))) (b : List (List (V3 ν))) (rest : List (GeoCoord ν))
    (hrest : nextLevelIs 3 rest = none) :
    geoMultiPolygonLoop (a ++ [b]) (seqCoords (ringCoords val) 1 1 rs ++ rest) =
      geoMultiPolygonLoop (a ++ [b ++ rs.map (·.map (posV3 val))]) rest := by
  induction rs generalizing b with
  | nil => simp [seqCoords]
  | cons r rs ih =>
    have hne' : ∀ r ∈ rs, r ≠ [] := fun x hx => hne x (by simp [hx])
    have hr := nextLevelIs_rings val 1 1 3 rs hne' rest (by decide) hrest
    cases r with
    | nil => exact absurd rfl (hne [] (by simp))
    | cons p ps =>
      have hn := nextLevelIs_seq val 2 2 3 ps _ (by decide) hr
      rw [seqCoords, ringCoords, seq_pos, List.cons_append, List.cons_append, List.cons_append, List.cons_append,
        List.append_assoc, geoMultiPolygonLoop]
      simp only [hn, if_true, ne_eq, not_true_eq_false, List.append_eq_nil_iff, List.cons_ne_self,
        and_false, or_self, pushLast_append, modifyLast_append, if_false, List.nil_append, Nat.one_ne_zero, or_true]
      rw [multiPolygonLoop_ring val ps a _ _ _ hr, ih hne']
      simp [posV3]

abbrev polyCoords (val : Str → ν) (k r : Nat) (l : List (List Pos)) : List (GeoCoord ν) :=
  seqCoords (ringCoords val) (k + 1) r l

theorem multiPolygonLoop_polys (val : Str → ν) (polys : List (List (List Pos)))
    (hne : ∀ p ∈ polys, p ≠ [] ∧ ∀ r ∈ p, r ≠ []) (a : List (List (List (V3 ν)))) :
    geoMultiPolygonLoop a (seqCoords (polyCoords val) 0 0 polys) =
      .ok (a ++ polys.map (·.map (·.map (posV3 val)))) := by
  induction polys generalizing a with
  | nil => simp [seqCoords, geoMultiPolygonLoop]
  | cons q polys ih =>
    have hne' : ∀ p ∈ polys, p ≠ [] ∧ ∀ r ∈ p, r ≠ [] := fun x hx => hne x (by simp [hx])
    have hq := hne q (by simp)
    have hrest : nextLevelIs 3 (seqCoords (polyCoords val) 0 0 polys) = none := by
      cases polys with
      | nil => rfl
      | cons r rs =>
        have h1 := hne' r (by simp)
        rw [seqCoords, polyCoords]
        cases r with
        | nil => exact absurd rfl h1.1
        | cons l ls =>
          cases l with
          | nil => exact absurd rfl (h1.2 [] (by simp))
          | cons p ps => rw [seqCoords, ringCoords, seq_pos]; simp [nextLevelIs]
    cases q with
    | nil => exact absurd rfl hq.1
    | cons r rs =>
      have hr := nextLevelIs_rings val 1 1 3 rs (fun x hx => hq.2 x (by simp [hx])) _ (by decide) hrest
      cases r with
      | nil => exact absurd rfl (hq.2 [] (by simp))
      | cons p ps =>
        have hn := nextLevelIs_seq val 2 2 3 ps _ (by decide) hr
        rw [seqCoords, polyCoords, seqCoords, ringCoords, seq_pos, List.cons_append, List.cons_append,
          List.cons_append, List.cons_append, List.append_assoc, geoMultiPolygonLoop]
        simp only [hn, if_true, ne_eq, not_true_eq_false, List.append_eq_nil_iff, List.cons_ne_self,
          and_false, or_self, pushLast_append, modifyLast_append, if_false, List.nil_append, Nat.one_ne_zero, true_or]
        have e1 := multiPolygonLoop_ring val ps a [] [posV3 val p] _ hr
        have e2 := multiPolygonLoop_rings val rs (fun x hx => hq.2 x (by simp [hx])) a
          [[posV3 val p] ++ ps.map (posV3 val)] _ hrest
        refine e1.trans (e2.trans ?_)
        rw [ih hne']
        simp [posV3]

theorem geoAssemble_map (ps : List (List (List (V3 ν)))) (h : ∀ p ∈ ps, p ≠ []) :
    geoAssemble ps = some (ps.map fun p => (p.headD [], p.tail)) := by
  induction ps with
  | nil => rfl
  | cons p ps ih =>
    cases p with
    | nil => exact absurd rfl (h [] (by simp))
    | cons b hs => rw [geoAssemble, ih (fun x hx => h x (by simp [hx]))]; rfl


/-- The coordinates of a geometry. -/
def geoCoordsOf (val : Str → ν) : Geometry → List (GeoCoord ν)
  | .multiPoint ps => seqCoords (posCoords val) 0 0 ps
  | .lineString ps => seqCoords (posCoords val) 0 0 ps
  | .multiLineString ls => seqCoords (ringCoords val) 0 0 ls
  | .polygon rs => seqCoords (ringCoords val) 0 0 rs
  | .multiPolygon ps => seqCoords (polyCoords val) 0 0 ps

theorem readCoords_geometry (fin : JEnd) (num : Str → Option ν) (val : Str → ν) (g : Geometry)
    (hnum : ∀ p ∈ g.positions, num p.1 = some (val p.1) ∧ num p.2 = some (val p.2)) (acc : List (GeoCoord ν))
    (rest : List JItem) :
    geoReadCoords fin num acc (g.coordinates.map .tok ++ rest) = .ok (acc ++ geoCoordsOf val g) rest := by
  have h0 := reads_pos fin num val
  cases g with
  | multiPoint ps => exact readCoords_list h0 acc ps hnum rest
  | lineString ps => exact readCoords_list h0 acc ps hnum rest
  | multiLineString ls =>
    exact readCoords_list (reads_list h0) acc ls
      (fun l hl p hp => hnum p (List.mem_flatten.2 ⟨l, hl, hp⟩)) rest
  | polygon ls =>
    exact readCoords_list (reads_list h0) acc ls
      (fun l hl p hp => hnum p (List.mem_flatten.2 ⟨l, hl, hp⟩)) rest
  | multiPolygon ps =>
    exact readCoords_list (reads_list (reads_list h0)) acc ps
      (fun l hl r hr p hp => hnum p (List.mem_flatten.2 ⟨r, List.mem_flatten.2 ⟨l, hl, hr⟩, hp⟩)) rest

theorem geoFinish_LineString (c : List (GeoCoord ν)) : geoFinish "LineString".toList c = geoLineString c := by
  simp [geoFinish]

theorem geoFinish_MultiLineString (c : List (GeoCoord ν)) : geoFinish "MultiLineString".toList c = geoMultiLineString c := by
  simp [geoFinish]

theorem geoFinish_MultiPoint (c : List (GeoCoord ν)) : geoFinish "MultiPoint".toList c = geoMultiPoint c := by
  simp [geoFinish]

theorem geoFinish_MultiPolygon (c : List (GeoCoord ν)) : geoFinish "MultiPolygon".toList c = geoMultiPolygon c := by
  simp [geoFinish]

theorem geoFinish_Polygon (c : List (GeoCoord ν)) : geoFinish "Polygon".toList c = geoPolygon c := by
  simp [geoFinish]

theorem finish_geometry (val : Str → ν) (g : Geometry) (hne : g.NonEmpty) :
    geoFinish g.type (geoCoordsOf val g) = .ok [g.event val] := by
  cases g with
  | multiPoint ps =>
    simp only [Geometry.NonEmpty] at hne
    refine (geoFinish_MultiPoint _).trans ?_
    rw [geoCoordsOf]
    rw [geoMultiPoint, lineLoop_pos]
    cases ps with
    | nil => exact absurd rfl hne
    | cons p ps => rfl
  | lineString ps =>
    simp only [Geometry.NonEmpty] at hne
    refine (geoFinish_LineString _).trans ?_
    rw [geoCoordsOf]
    rw [geoLineString, lineLoop_pos]
    cases ps with
    | nil => exact absurd rfl hne
    | cons p ps => rfl
  | multiLineString ls =>
    simp only [Geometry.NonEmpty] at hne
    refine (geoFinish_MultiLineString _).trans ?_
    rw [geoCoordsOf]
    rw [geoMultiLineString, multiLineLoop_rings val ls hne.2]
    cases ls with
    | nil => exact absurd rfl hne.1
    | cons p ps => rfl
  | polygon rs =>
    simp only [Geometry.NonEmpty] at hne
    refine (geoFinish_Polygon _).trans ?_
    rw [geoCoordsOf]
    rw [geoPolygon, polygonLoop_rings val rs hne.2]
    cases rs with
    | nil => exact absurd rfl hne.1
    | cons p ps => rfl
  | multiPolygon ps =>
    simp only [Geometry.NonEmpty] at hne
    refine (geoFinish_MultiPolygon _).trans ?_
    rw [geoCoordsOf]
    rw [geoMultiPolygon, multiPolygonLoop_polys val ps hne.2]
    simp only [List.nil_append]
    rw [geoAssemble_map]
    · simp only [Geometry.event, List.map_map]
      congr 3
      apply List.map_congr_left
      intro p hp
      have := (hne.2 p hp).1
      cases p with
      | nil => exact absurd rfl this
      | cons b hs => rfl
    · intro q hq
      obtain ⟨p, hp, rfl⟩ := List.mem_map.1 hq
      have := (hne.2 p hp).1
      cases p <;> simp_all

/-! ## Objects -/

abbrev GeoState (ν : Type) := Str × List (GeoCoord ν)

/-- Reading the tokens in an object makes the calls `ev` and changes the state by `f`. -/
def Does (fin : JEnd) (num : Str → Option ν) (toks : List JTok) (ev : List (GeoEvent ν))
    (f : GeoState ν → GeoState ν) : Prop :=
  ∀ (n : Nat) (st : GeoState ν) (rest : List JItem), (toks.map JItem.tok ++ rest).length < n →
    ∃ m, rest.length < m ∧ geoObjectData fin num n st.1 st.2 (toks.map .tok ++ rest) =
      (ev ++ (geoObjectData fin num m (f st).1 (f st).2 rest).1, (geoObjectData fin num m (f st).1 (f st).2 rest).2)

theorem Does.append {fin : JEnd} {num : Str → Option ν} {a b : List JTok} {ea eb : List (GeoEvent ν)}
    {f g : GeoState ν → GeoState ν} (ha : Does fin num a ea f) (hb : Does fin num b eb g) :
    Does fin num (a ++ b) (ea ++ eb) (g ∘ f) := by
  intro n st rest hn
  rw [List.map_append, List.append_assoc] at hn ⊢
  obtain ⟨m, hm, h⟩ := ha n st _ hn
  obtain ⟨m', hm', h'⟩ := hb m (f st) rest hm
  refine ⟨m', hm', ?_⟩
  rw [h, h']
  simp

theorem does_nil (fin : JEnd) (num : Str → Option ν) : Does fin num [] [] id := by
  intro n st rest hn
  exact ⟨n, by simpa using hn, by simp⟩

theorem does_type (fin : JEnd) (num : Str → Option ν) (t : Str) :
    Does fin num [.str "type".toList, .str t] [] (fun st => (t, st.2)) := by
  intro n st rest hn
  obtain ⟨n, rfl⟩ : ∃ m, n = m + 1 := ⟨n - 1, by omega⟩
  simp only [List.map_cons, List.map_nil, List.cons_append, List.nil_append, List.length_cons] at hn ⊢
  refine ⟨n, by omega, ?_⟩
  rw [geoObjectData]
  simp only [jsonNext, if_true, jsonReadString]

theorem does_foreign (fin : JEnd) (num : Str → Option ν) (o : Members) (h : Foreign o) :
    Does fin num o.tokens [] id := by
  match o with
  | .nil => exact does_nil fin num
  | .cons k v o =>
    have ih := does_foreign fin num o h.2
    have hk := h.1
    simp only [geoKeys, List.mem_cons, List.not_mem_nil, or_false, not_or] at hk
    intro n st rest hn
    obtain ⟨n, rfl⟩ : ∃ m, n = m + 1 := ⟨n - 1, by omega⟩
    simp only [Members.tokens, List.map_cons, List.map_append, List.cons_append, List.append_assoc,
      List.length_cons] at hn ⊢
    obtain ⟨m, hm, he⟩ := ih n st rest (by simp only [List.length_append, List.length_map] at hn ⊢; omega)
    refine ⟨m, hm, ?_⟩
    rw [geoObjectData]
    simp only [jsonNext]
    rw [if_neg hk.1, if_neg hk.2.1, if_neg hk.2.2.1, if_neg hk.2.2.2]
    rw [skip_value fin v n (o.tokens.map JItem.tok ++ rest) (by omega)]
    exact he

theorem does_coordinates (fin : JEnd) (num : Str → Option ν) (val : Str → ν) (g : Geometry)
    (hnum : ∀ p ∈ g.positions, num p.1 = some (val p.1) ∧ num p.2 = some (val p.2)) :
    Does fin num (.str "coordinates".toList :: g.coordinates) [] (fun st => (st.1, st.2 ++ geoCoordsOf val g)) := by
  intro n st rest hn
  obtain ⟨n, rfl⟩ : ∃ m, n = m + 1 := ⟨n - 1, by omega⟩
  simp only [List.map_cons, List.cons_append, List.length_cons] at hn ⊢
  refine ⟨n, by simp only [List.length_append] at hn; omega, ?_⟩
  rw [geoObjectData]
  simp only [jsonNext]
  rw [if_neg (by decide), if_neg (by decide), if_neg (by decide), if_pos trivial,
    readCoords_geometry fin num val g hnum]
  simp

/-- An object that is complete. -/
theorem does_finish {fin : JEnd} {num : Str → Option ν} {body : List JTok} {ev : List (GeoEvent ν)}
    {f : GeoState ν → GeoState ν} (h : Does fin num body ev f) {ev' : List (GeoEvent ν)}
    (hf : geoFinish (f ([], [])).1 (f ([], [])).2 = .ok ev') (n : Nat) (rest : List JItem)
    (hn : ((body ++ [JTok.objEnd]).map JItem.tok ++ rest).length < n) :
    geoObjectData fin num n [] [] ((body ++ [JTok.objEnd]).map JItem.tok ++ rest) = (ev ++ ev', .ok () rest) := by
  rw [List.map_append, List.append_assoc] at hn ⊢
  obtain ⟨m, hm, he⟩ := h n ([], []) _ hn
  obtain ⟨m, rfl⟩ : ∃ k, m = k + 1 := ⟨m - 1, by omega⟩
  rw [he]
  have : geoObjectData fin num (m + 1) (f ([], [])).1 (f ([], [])).2 ([JTok.objEnd].map .tok ++ rest) =
      (ev', .ok () rest) := by
    rw [geoObjectData]
    simp [jsonNext, hf]
  rw [this]

/-- The part of an object behind its opening brace. -/
def objBody (typeFirst : Bool) (o1 o2 o3 : Members) (type key : Str) (v : List JTok) : List JTok :=
  o1.tokens ++ (if typeFirst then [.str "type".toList, .str type] else .str key :: v) ++ o2.tokens ++
    (if typeFirst then .str key :: v else [.str "type".toList, .str type]) ++ o3.tokens

theorem objTokens_eq (tf : Bool) (o1 o2 o3 : Members) (type key : Str) (v : List JTok) :
    objTokens tf o1 o2 o3 type key v = .objBegin :: (objBody tf o1 o2 o3 type key v ++ [.objEnd]) := rfl

theorem does_body {fin : JEnd} {num : Str → Option ν} {tf : Bool} {o1 o2 o3 : Members} {type key : Str}
    {v : List JTok} {ev : List (GeoEvent ν)} {c : List (GeoCoord ν)} (h1 : Foreign o1) (h2 : Foreign o2)
    (h3 : Foreign o3) (hv : Does fin num (.str key :: v) ev (fun st => (st.1, st.2 ++ c))) :
    Does fin num (objBody tf o1 o2 o3 type key v) ev (fun st => (type, st.2 ++ c)) := by
  have f1 := does_foreign fin num o1 h1
  have f2 := does_foreign fin num o2 h2
  have f3 := does_foreign fin num o3 h3
  have ft := does_type fin num type
  cases tf with
  | true =>
    have := (((f1.append ft).append f2).append hv).append f3
    simp only [List.nil_append, List.append_nil] at this
    exact this
  | false =>
    have := (((f1.append hv).append f2).append ft).append f3
    simp only [List.nil_append, List.append_nil] at this
    exact this

mutual
theorem geoObject_doc (fin : JEnd) (num : Str → Option ν) (val : Str → ν) (d : Geo) (hok : d.Ok)
    (hnum : ∀ g ∈ d.geometries, ∀ p ∈ g.positions, num p.1 = some (val p.1) ∧ num p.2 = some (val p.2)) :
    ∃ body, d.tokens = .objBegin :: body ∧ ∀ (n : Nat) (rest : List JItem), (body.map JItem.tok ++ rest).length < n →
      geoObjectData fin num n [] [] (body.map .tok ++ rest) = (d.geometries.map (·.event val), .ok () rest) := by
  match d with
  | .geometry tf o1 o2 o3 g =>
    obtain ⟨h1, h2, h3, hne⟩ := hok
    refine ⟨_, objTokens_eq .., fun n rest hn => ?_⟩
    have := does_finish (does_body (tf := tf) (type := g.type) h1 h2 h3 (does_coordinates fin num val g (hnum g (by simp [Geo.geometries]))))
      (finish_geometry val g hne) n rest hn
    rw [this]; rfl
  | .feature tf o1 o2 o3 g =>
    obtain ⟨h1, h2, h3, hg⟩ := hok
    obtain ⟨body, hb, hd⟩ := geoObject_doc fin num val g hg hnum
    have hm : Does fin num (.str "geometry".toList :: g.tokens) (g.geometries.map (·.event val))
        (fun st => (st.1, st.2 ++ [])) := by
      intro n st rest hn
      obtain ⟨n, rfl⟩ : ∃ m, n = m + 1 := ⟨n - 1, by omega⟩
      rw [hb] at hn ⊢
      simp only [List.map_cons, List.cons_append, List.length_cons] at hn ⊢
      refine ⟨n, by simp only [List.length_append] at hn; omega, ?_⟩
      obtain ⟨n, rfl⟩ : ∃ m, n = m + 1 := ⟨n - 1, by omega⟩
      rw [geoObjectData]
      simp only [jsonNext]
      rw [if_neg (by decide), if_neg (by decide), if_pos trivial, geoObject]
      simp only [jsonExpect, jsonNext, if_true]
      rw [hd n rest (by omega)]
      simp
    refine ⟨_, objTokens_eq .., fun n rest hn => ?_⟩
    have := does_finish (does_body (tf := tf) (type := "Feature".toList) h1 h2 h3 hm) (ev' := []) (by
      simp [geoFinish]) n rest hn
    rw [this]; simp [Geo.geometries]
  | .collection tf o1 o2 o3 gs =>
    obtain ⟨h1, h2, h3, hg⟩ := hok
    have hl := geoObjects_doc fin num val gs hg hnum
    have hm : Does fin num (.str "features".toList :: .arrBegin :: (gs.tokens ++ [.arrEnd])) (gs.geometries.map (·.event val))
        (fun st => (st.1, st.2 ++ [])) := by
      intro n st rest hn
      obtain ⟨n, rfl⟩ : ∃ m, n = m + 1 := ⟨n - 1, by omega⟩
      simp only [List.map_cons, List.map_append, List.cons_append, List.length_cons, List.append_assoc, List.map_nil, List.nil_append] at hn ⊢
      refine ⟨n, by simp only [List.length_append, List.length_cons] at hn; omega, ?_⟩
      obtain ⟨n, rfl⟩ : ∃ m, n = m + 1 := ⟨n - 1, by omega⟩
      rw [geoObjectData]
      simp only [jsonNext]
      rw [if_neg (by decide), if_pos trivial, geoObjects]
      simp only [jsonExpect, jsonNext, if_true]
      rw [hl n rest (by omega)]
      simp
    refine ⟨_, objTokens_eq .., fun n rest hn => ?_⟩
    have := does_finish (does_body (tf := tf) (type := "FeatureCollection".toList) h1 h2 h3 hm) (ev' := []) (by
      simp [geoFinish]) n rest hn
    rw [this]; simp [Geo.geometries]
theorem geoObjects_doc (fin : JEnd) (num : Str → Option ν) (val : Str → ν) (ds : GeoList) (hok : ds.Ok)
    (hnum : ∀ g ∈ ds.geometries, ∀ p ∈ g.positions, num p.1 = some (val p.1) ∧ num p.2 = some (val p.2)) :
    ∀ (n : Nat) (rest : List JItem), (ds.tokens.map JItem.tok ++ .tok .arrEnd :: rest).length < n →
      geoObjectsLoop fin num n (ds.tokens.map .tok ++ .tok .arrEnd :: rest) =
        (ds.geometries.map (·.event val), .ok () rest) := by
  match ds with
  | .nil =>
    intro n rest hn
    obtain ⟨n, rfl⟩ : ∃ m, n = m + 1 := ⟨n - 1, by omega⟩
    simp [GeoList.tokens, GeoList.geometries, geoObjectsLoop, jsonNext]
  | .cons d ds =>
    intro n rest hn
    obtain ⟨n, rfl⟩ : ∃ m, n = m + 1 := ⟨n - 1, by omega⟩
    obtain ⟨body, hb, hd⟩ := geoObject_doc fin num val d hok.1 (fun g hg => hnum g (by simp [GeoList.geometries, hg]))
    have ih := geoObjects_doc fin num val ds hok.2 (fun g hg => hnum g (by simp [GeoList.geometries, hg])) n rest
    simp only [GeoList.tokens, hb, List.map_append, List.map_cons, List.cons_append, List.append_assoc, List.length_cons,
      List.length_append, List.length_map] at hn ih ⊢
    rw [geoObjectsLoop]
    simp only [jsonNext]
    rw [hd n _ (by simp only [List.length_append, List.length_map, List.length_cons]; omega)]
    simp only
    rw [ih (by omega)]
    simp [GeoList.geometries]
end


/-! ## Fuel -/

/-- The outcome is not `outOfFuel`, and at most `k` items are left. -/
def Fine {α : Type} (k : Nat) : JRes α → Prop
  | .ok _ r => r.length ≤ k
  | .error r => r.length ≤ k
  | .loops => True
  | .undefined => True
  | .outOfFuel => False

theorem Fine.mono {α : Type} {k k' : Nat} {r : JRes α} (h : Fine k r) (hk : k ≤ k') : Fine k' r := by
  cases r <;> simp_all [Fine] <;> omega

/-- A token was consumed. -/
theorem next_fine (fin : JEnd) (s : List JItem) :
    (∃ t r, jsonNext fin s = .ok t r ∧ s = .tok t :: r) ∨
    (∃ r, jsonNext fin s = .error r ∧ r.length ≤ s.length) ∨ jsonNext fin s = .loops := by
  match s with
  | .tok t :: r => exact .inl ⟨t, r, rfl, rfl⟩
  | .bad :: r => exact .inr (.inl ⟨r, rfl, by simp⟩)
  | [] =>
    cases fin
    · exact .inr (.inl ⟨[], rfl, by simp⟩)
    · exact .inr (.inr rfl)

theorem skip_fine (fin : JEnd) (n : Nat) :
    (∀ s, s.length < n → Fine s.length (jsonSkipArray fin n s)) ∧
    (∀ s, s.length < n → Fine s.length (jsonSkipObject fin n s)) := by
  induction n with
  | zero => exact ⟨fun s h => absurd h (by omega), fun s h => absurd h (by omega)⟩
  | succ n ih =>
    obtain ⟨iha, iho⟩ := ih
    have ka : ∀ k s, s.length < n → s.length ≤ k → Fine k (jsonSkipArray fin n s) :=
      fun k s h h' => (iha s h).mono h'
    have ko : ∀ k s, s.length < n → s.length ≤ k → Fine k (jsonSkipObject fin n s) :=
      fun k s h h' => (iho s h).mono h'
    constructor
    · intro s hs
      unfold jsonSkipArray
      rcases next_fine fin s with ⟨t, r, e, rfl⟩ | ⟨r, e, hr⟩ | e
      · rw [e]
        simp only [List.length_cons] at hs ⊢
        cases t <;> simp only
        case arrBegin =>
          have := ka r.length r (by omega) (by omega)
          cases h : jsonSkipArray fin n r with
          | ok a r' => rw [h] at this; simp only [Fine] at this; exact ka _ r' (by omega) (by omega)
          | error r' => rw [h] at this; exact this.mono (by omega)
          | loops => trivial
          | undefined => trivial
          | outOfFuel => rw [h] at this; exact this
        case objBegin =>
          have := ko r.length r (by omega) (by omega)
          cases h : jsonSkipObject fin n r with
          | ok a r' => rw [h] at this; simp only [Fine] at this; exact ka _ r' (by omega) (by omega)
          | error r' => rw [h] at this; exact this.mono (by omega)
          | loops => trivial
          | undefined => trivial
          | outOfFuel => rw [h] at this; exact this
        case arrEnd => simp [Fine]
        case objEnd => simp [Fine]
        all_goals exact ka _ _ (by omega) (by omega)
      · rw [e]; simpa [Fine] using hr
      · rw [e]; trivial
    · intro s hs
      unfold jsonSkipObject
      rcases next_fine fin s with ⟨t, r, e, rfl⟩ | ⟨r, e, hr⟩ | e
      · rw [e]
        simp only [List.length_cons] at hs ⊢
        cases t <;> simp only
        case str k =>
          rcases next_fine fin r with ⟨t, r1, e, rfl⟩ | ⟨r, e, hr⟩ | e
          · rw [e]
            simp only [List.length_cons] at hs ⊢
            cases t <;> simp only
            case arrBegin =>
              have := ka r1.length r1 (by omega) (by omega)
              cases h : jsonSkipArray fin n r1 with
              | ok a r' => rw [h] at this; simp only [Fine] at this; exact ko _ r' (by omega) (by omega)
              | error r' => rw [h] at this; exact this.mono (by omega)
              | loops => trivial
              | undefined => trivial
              | outOfFuel => rw [h] at this; exact this
            case objBegin =>
              have := ko r1.length r1 (by omega) (by omega)
              cases h : jsonSkipObject fin n r1 with
              | ok a r' => rw [h] at this; simp only [Fine] at this; exact ko _ r' (by omega) (by omega)
              | error r' => rw [h] at this; exact this.mono (by omega)
              | loops => trivial
              | undefined => trivial
              | outOfFuel => rw [h] at this; exact this
            case arrEnd => simp only [Fine]; omega
            case objEnd => simp only [Fine]; omega
            all_goals exact ko _ _ (by omega) (by omega)
          · rw [e]; simp only [Fine]; omega
          · rw [e]; trivial
        all_goals simp [Fine]
      · rw [e]; simpa [Fine] using hr
      · rw [e]; trivial

theorem skipValue_fine (fin : JEnd) (n : Nat) (s : List JItem) (h : s.length < n) :
    Fine s.length (jsonSkip fin n s) := by
  unfold jsonSkip
  rcases next_fine fin s with ⟨t, r, e, rfl⟩ | ⟨r, e, hr⟩ | e
  · rw [e]
    simp only [List.length_cons] at h ⊢
    cases t <;> simp only
    case arrBegin => exact ((skip_fine fin n).1 r (by omega)).mono (by omega)
    case objBegin => exact ((skip_fine fin n).2 r (by omega)).mono (by omega)
    all_goals simp [Fine]
  · rw [e]; simpa [Fine] using hr
  · rw [e]; trivial

omit [Zero ν] in
theorem coords_fine (fin : JEnd) (num : Str → Option ν) (k r : Nat) (acc : List (GeoCoord ν)) (s : List JItem) :
    Fine s.length (geoCoordsLoop fin num k r acc s) := by
  induction s generalizing k r acc with
  | nil => cases fin <;> simp [geoCoordsLoop, Fine]
  | cons i s ih =>
    cases i with
    | bad => simp [geoCoordsLoop, Fine]
    | tok t =>
      cases t <;> simp only [geoCoordsLoop]
      case num w =>
        cases num w with
        | none => simp [Fine]
        | some v => exact (ih ..).mono (by simp)
      case arrBegin => exact (ih ..).mono (by simp)
      case arrEnd =>
        split
        · simp [Fine]
        · exact (ih ..).mono (by simp)
      all_goals simp [Fine]

theorem expect_fine (fin : JEnd) (t : JTok) (s : List JItem) :
    (∃ r, jsonExpect fin t s = .ok () r ∧ r.length < s.length) ∨
    (∃ r, jsonExpect fin t s = .error r ∧ r.length ≤ s.length) ∨ jsonExpect fin t s = .loops := by
  unfold jsonExpect
  rcases next_fine fin s with ⟨t, r, e, rfl⟩ | ⟨r, e, hr⟩ | e
  · rw [e]; simp only
    split
    · exact .inl ⟨r, rfl, by simp⟩
    · exact .inr (.inl ⟨r, rfl, by simp⟩)
  · rw [e]; exact .inr (.inl ⟨r, rfl, hr⟩)
  · rw [e]; exact .inr (.inr rfl)

omit [Zero ν] in
theorem readCoords_fine (fin : JEnd) (num : Str → Option ν) (acc : List (GeoCoord ν)) (s : List JItem) :
    Fine s.length (geoReadCoords fin num acc s) := by
  unfold geoReadCoords
  rcases expect_fine fin .arrBegin s with ⟨r, e, hr⟩ | ⟨r, e, hr⟩ | e
  · rw [e]; exact (coords_fine ..).mono (by omega)
  · rw [e]; exact hr
  · rw [e]; trivial

theorem readString_fine (fin : JEnd) (s : List JItem) : Fine s.length (jsonReadString fin s) := by
  unfold jsonReadString
  rcases next_fine fin s with ⟨t, r, e, rfl⟩ | ⟨r, e, hr⟩ | e
  · rw [e]; cases t <;> simp [Fine]
  · rw [e]; exact hr
  · rw [e]; trivial

theorem geo_fine (fin : JEnd) (num : Str → Option ν) (n : Nat) :
    (∀ t c s, s.length < n → Fine s.length (geoObjectData fin num n t c s).2) ∧
    (∀ s, s.length < n → Fine s.length (geoObjects fin num n s).2) ∧
    (∀ s, s.length < n → Fine s.length (geoObjectsLoop fin num n s).2) ∧
    (∀ s, s.length < n → Fine s.length (geoObject fin num n s).2) := by
  induction n with
  | zero => exact ⟨fun _ _ s h => absurd h (by omega), fun s h => absurd h (by omega),
      fun s h => absurd h (by omega), fun s h => absurd h (by omega)⟩
  | succ n ih =>
    obtain ⟨ihd, ihs, ihl, iho⟩ := ih
    have kd : ∀ k t c s, s.length < n → s.length ≤ k → Fine k (geoObjectData fin num n t c s).2 :=
      fun k t c s h h' => (ihd t c s h).mono h'
    refine ⟨?_, ?_, ?_, ?_⟩
    · intro t c s hs
      unfold geoObjectData
      rcases next_fine fin s with ⟨tk, r, e, rfl⟩ | ⟨r, e, hr⟩ | e
      · rw [e]
        simp only [List.length_cons] at hs ⊢
        cases tk <;> simp only
        case objEnd =>
          cases geoFinish t c <;> simp [Fine]
        case str k =>
          split
          · have := readString_fine fin r
            cases h : jsonReadString fin r <;> rw [h] at this <;> simp only [Fine] at this ⊢
            · exact kd _ _ _ _ (by omega) (by omega)
            · omega
          · split
            · have := ihs r (by omega)
              cases h : geoObjects fin num n r with
              | mk ev res =>
                rw [h] at this
                cases res <;> simp only [Fine] at this ⊢
                · exact kd _ _ _ _ (by omega) (by omega)
                · omega
            · split
              · have := iho r (by omega)
                cases h : geoObject fin num n r with
                | mk ev res =>
                  rw [h] at this
                  cases res <;> simp only [Fine] at this ⊢
                  · exact kd _ _ _ _ (by omega) (by omega)
                  · omega
              · split
                · have := readCoords_fine fin num c r
                  cases h : geoReadCoords fin num c r <;> rw [h] at this <;> simp only [Fine] at this ⊢
                  · exact kd _ _ _ _ (by omega) (by omega)
                  · omega
                · have := skipValue_fine fin n r (by omega)
                  cases h : jsonSkip fin n r <;> rw [h] at this <;> simp only [Fine] at this ⊢
                  · exact kd _ _ _ _ (by omega) (by omega)
                  · exact kd _ _ _ _ (by omega) (by omega)
        all_goals simp [Fine]
      · rw [e]; simpa [Fine] using hr
      · rw [e]; trivial
    · intro s hs
      unfold geoObjects
      rcases expect_fine fin .arrBegin s with ⟨r, e, hr⟩ | ⟨r, e, hr⟩ | e
      · rw [e]; exact (ihl r (by omega)).mono (by omega)
      · rw [e]; exact hr
      · rw [e]; trivial
    · intro s hs
      unfold geoObjectsLoop
      rcases next_fine fin s with ⟨tk, r, e, rfl⟩ | ⟨r, e, hr⟩ | e
      · rw [e]
        simp only [List.length_cons] at hs ⊢
        cases tk <;> simp only
        case objBegin =>
          have := ihd [] [] r (by omega)
          cases h : geoObjectData fin num n [] [] r with
          | mk ev res =>
            rw [h] at this
            cases res <;> simp only [Fine] at this ⊢
            · exact (ihl _ (by omega)).mono (by omega)
            · omega
        all_goals simp [Fine]
      · rw [e]; simpa [Fine] using hr
      · rw [e]; trivial
    · intro s hs
      unfold geoObject
      rcases expect_fine fin .objBegin s with ⟨r, e, hr⟩ | ⟨r, e, hr⟩ | e
      · rw [e]; exact (ihd [] [] r (by omega)).mono (by omega)
      · rw [e]; exact hr
      · rw [e]; trivial


/-! ## Lines with positions of any dimension -/

/-- The coordinates of a position with any number of coordinates. -/
def numsCoords (val : Str → ν) (k r : Nat) : List Str → List (GeoCoord ν)
  | [] => []
  | w :: ws => (val w, r) :: ws.map fun w => (val w, k + 1)

omit [Zero ν] in
theorem reads_nums (fin : JEnd) (num : Str → Option ν) (val : Str → ν) :
    Reads fin num (fun ws : List Str => ∀ w ∈ ws, num w = some (val w))
      (fun ws => .arrBegin :: (ws.map JTok.num ++ [.arrEnd])) (numsCoords val) := by
  have key : ∀ (ws : List Str) k acc rest, (∀ w ∈ ws, num w = some (val w)) →
      geoCoordsLoop fin num (k + 1) (k + 1) acc ((ws.map JTok.num ++ [JTok.arrEnd]).map JItem.tok ++ rest) =
        geoCoordsLoop fin num k k (acc ++ ws.map fun w => (val w, k + 1)) rest := by
    intro ws
    induction ws with
    | nil => intro k acc rest _; simp [geoCoordsLoop]
    | cons w ws ih =>
      intro k acc rest h
      have := ih k (acc ++ [(val w, k + 1)]) rest (fun x hx => h x (by simp [hx]))
      simp only [List.map_append, List.map_map, List.map_cons, List.map_nil, List.append_assoc, List.cons_append,
        List.nil_append] at this ⊢
      simp only [Function.comp_apply, geoCoordsLoop, h w (by simp)]
      rw [this]
  intro k r acc ws rest h
  cases ws with
  | nil => simp [geoCoordsLoop, numsCoords]
  | cons w ws =>
    have := key ws k (acc ++ [(val w, r)]) rest (fun x hx => h x (by simp [hx]))
    simp only [List.map_append, List.map_map, List.map_cons, List.map_nil, List.append_assoc, List.cons_append,
        List.nil_append] at this ⊢
    simp only [geoCoordsLoop, h w (by simp), numsCoords]
    rw [this]

theorem lineLoop_nums (val : Str → ν) (ps : List (List Str)) (acc : List (V3 ν)) :
    geoLineLoop acc (seqCoords (numsCoords val) 0 0 ps) =
      if ∀ p ∈ ps, p.length = 2 ∨ p.length = 0 then
        .ok (acc ++ (ps.filter (·.length = 2)).map fun p => ⟨val (p.headD []), val (p.tail.headD []), 0⟩)
      else .error () := by
  induction ps generalizing acc with
  | nil => simp [seqCoords, geoLineLoop]
  | cons p ps ih =>
    have hn : ∀ ps : List (List Str), nextLevelIs 1 (seqCoords (numsCoords val) 0 0 ps) = none := by
      intro ps
      induction ps with
      | nil => rfl
      | cons p ps ih =>
        cases p with
        | nil => simpa [seqCoords, numsCoords] using ih
        | cons w ws => simp [seqCoords, numsCoords, nextLevelIs]
    match p with
    | [] => rw [seqCoords, numsCoords, List.nil_append, ih]; simp
    | [w] =>
      rw [seqCoords, numsCoords, if_neg (by simp)]
      have h0 : ∀ ps : List (List Str), seqCoords (numsCoords val) 0 0 ps = [] ∨
          ∃ v r, seqCoords (numsCoords val) 0 0 ps = (v, 0) :: r := by
        intro ps
        induction ps with
        | nil => exact .inl rfl
        | cons p ps ih =>
          cases p with
          | nil => simpa [seqCoords, numsCoords] using ih
          | cons w ws => exact .inr ⟨_, _, rfl⟩
      rcases h0 ps with h | ⟨v, r, h⟩
      · rw [h]; simp [geoLineLoop]
      · rw [h]; simp [geoLineLoop]
    | [w, w'] =>
      rw [seqCoords, numsCoords]
      simp only [List.map_cons, List.map_nil, List.cons_append, List.nil_append]
      rw [geoLineLoop, if_neg (by simp), hn]
      simp only
      rw [ih]
      simp
    | w :: w' :: w'' :: ws =>
      rw [seqCoords, numsCoords, if_neg (by simp)]
      simp only [List.map_cons, List.cons_append]
      rw [geoLineLoop, if_neg (by simp)]
      simp only [nextLevelIs]
      rw [if_pos (by simp)]
      simp only
      cases hws : (ws.map fun w => (val w, 0 + 1)) ++ seqCoords (numsCoords val) 0 0 ps with
      | nil => simp [geoLineLoop]
      | cons a l => simp [geoLineLoop]

end
end Clip
