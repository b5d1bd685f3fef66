import Verif.Spec.SvgDoc
import Verif.Props.Format
import Verif.Props.Color
import Mathlib.Tactic.Linarith
import Mathlib.Tactic.Positivity
/-!
# Lemmas: reading what the SVG export writes
-/
set_option linter.unusedSimpArgs false
namespace Clip
open Xml SvgDoc Decimal

/-! ## The XML reader -/

theorem run_append (st : St) (a b : Str) :
    run st (a ++ b) = (run st a).bind fun r => (run r.1 b).map fun r' => (r'.1, r.2 ++ r'.2) := by
  induction a generalizing st with
  | nil =>
    simp only [List.nil_append, run, Option.bind_some]
    cases run st b with
    | none => rfl
    | some r => simp
  | cons c a ih =>
    simp only [List.cons_append, run]
    cases step st c with
    | none => rfl
    | some r =>
      obtain ⟨st', e⟩ := r
      simp only [ih]
      cases run st' a with
      | none => rfl
      | some r =>
        simp only [Option.bind_some, Option.map_some]
        cases run r.1 b with
        | none => rfl
        | some r' => simp [List.append_assoc]

theorem run_trans {st st' st'' : St} {a b : Str} {e e' : List Event} (h : run st a = some (st', e))
    (h' : run st' b = some (st'', e')) : run st (a ++ b) = some (st'', e ++ e') := by
  rw [run_append, h]; simp [h']

/-- Text that can stand in an attribute value as it is. -/
def Plain (s : Str) : Prop := ∀ c ∈ s, c ≠ '"' ∧ c ≠ '<' ∧ c ≠ '&'

theorem unescape_plain {s : Str} (h : ∀ c ∈ s, c ≠ '<' ∧ c ≠ '&') : unescape none s = some s := by
  induction s with
  | nil => rfl
  | cons c s ih =>
    have hc := h c (by simp)
    rw [unescape, if_neg hc.2, if_neg hc.1, ih fun x hx => h x (by simp [hx])]; rfl

theorem escape_plain {s : Str} (h : Plain s) : svgAttrEscape s = s := by
  induction s with
  | nil => rfl
  | cons c s ih =>
    have hc := h c (by simp)
    rw [svgAttrEscape, List.flatMap_cons, if_neg hc.1]
    rw [svgAttrEscape] at ih
    rw [ih fun x hx => h x (by simp [hx])]; rfl

theorem run_attrName (n : Str) (attrs : List (Str × Str)) (a acc : Str) (h : ∀ c ∈ a, nameChar c = true) :
    run (.attr n attrs acc) a = some (.attr n attrs (a.reverse ++ acc), []) := by
  induction a generalizing acc with
  | nil => rfl
  | cons c a ih =>
    rw [run]
    simp only [step, h c (by simp), if_true]
    rw [ih _ fun x hx => h x (by simp [hx])]
    simp

theorem run_val (q : Char) (n : Str) (attrs : List (Str × Str)) (a v acc : Str) (h : ∀ c ∈ v, c ≠ q) :
    run (.val q n attrs a acc) v = some (.val q n attrs a (v.reverse ++ acc), []) := by
  induction v generalizing acc with
  | nil => rfl
  | cons c v ih =>
    rw [run]
    simp only [step, if_neg (h c (by simp))]
    rw [ih _ fun x hx => h x (by simp [hx])]
    simp

/-- A name the reader accepts for attributes. -/
def Name (a : Str) : Prop := a ≠ [] ∧ ∀ c ∈ a, nameChar c = true

theorem nameChar_not {c : Char} (h : nameChar c = true) : space c = false ∧ c ≠ '/' ∧ c ≠ '>' := by
  refine ⟨?_, ?_, ?_⟩
  · by_contra hs
    simp only [space, Bool.not_eq_false, Bool.or_eq_true, beq_iff_eq] at hs
    rcases hs with ((rfl | rfl) | rfl) | rfl <;> revert h <;> decide
  · rintro rfl; revert h; decide
  · rintro rfl; revert h; decide

/-- An attribute from the blank on. -/
theorem run_attr_gap (n : Str) (attrs : List (Str × Str)) (a v : Str) (ha : Name a) (hv : Plain v)
    (hn : a ∉ attrs.map Prod.fst) :
    run (.gap n attrs) (a ++ ['=', '"'] ++ svgAttrEscape v ++ ['"']) = some (.post n (attrs ++ [(a, v)]), []) := by
  obtain ⟨c, a, rfl⟩ := List.exists_cons_of_ne_nil ha.1
  have hc := ha.2 c (by simp)
  have hcn := nameChar_not hc
  have h1 : run (.gap n attrs) (c :: a) = some (.attr n attrs (a.reverse ++ [c]), []) := by
    rw [run]
    simp only [step, hcn.1, hcn.2.1, hcn.2.2, hc, if_true, if_false, Bool.false_eq_true]
    rw [run_attrName n attrs a [c] fun x hx => ha.2 x (by simp [hx])]
    rfl
  have h2 : run (.attr n attrs (a.reverse ++ [c])) ['=', '"'] = some (.val '"' n attrs (c :: a) [], []) := by
    have : (a.reverse ++ [c]).reverse = c :: a := by simp
    rw [run]
    have hne : nameChar '=' = false := by decide
    simp only [step, hne, if_false, if_true, Bool.false_eq_true, this]
    rw [run]
    simp [step, run]
  have h3 : run (.val '"' n attrs (c :: a) []) v = some (.val '"' n attrs (c :: a) v.reverse, []) := by
    rw [run_val _ _ _ _ _ _ fun x hx => (hv x hx).1]; simp
  have h4 : run (.val '"' n attrs (c :: a) v.reverse) ['"'] = some (.post n (attrs ++ [(c :: a, v)]), []) := by
    have hu : unescape none v = some v := unescape_plain fun x hx => (hv x hx).2
    have hcont : (attrs.map Prod.fst).contains (c :: a) = false := by
      simpa using hn
    rw [run]
    simp only [step, if_true, hcont, Bool.false_eq_true, if_false, List.reverse_reverse, hu, Option.map_some, run]
    rfl
  rw [escape_plain hv]
  exact run_trans (run_trans (run_trans h1 h2) h3) h4

theorem run_attr_post (n : Str) (attrs : List (Str × Str)) (a v : Str) (ha : Name a) (hv : Plain v)
    (hn : a ∉ attrs.map Prod.fst) :
    run (.post n attrs) (svgAttr a v) = some (.post n (attrs ++ [(a, v)]), []) := by
  have : svgAttr a v = [' '] ++ (a ++ ['=', '"'] ++ svgAttrEscape v ++ ['"']) := by simp [svgAttr]
  rw [this]
  refine run_trans (e := []) (st' := .gap n attrs) ?_ (run_attr_gap n attrs a v ha hv hn)
  simp [run, step, space]

theorem run_attr_name (n : Str) (a v : Str) (ha : Name a) (hv : Plain v) :
    run (.name n) (svgAttr a v) = some (.post n.reverse [(a, v)], []) := by
  have : svgAttr a v = [' '] ++ (a ++ ['=', '"'] ++ svgAttrEscape v ++ ['"']) := by simp [svgAttr]
  rw [this]
  refine run_trans (e := []) (st' := .gap n.reverse []) ?_ (run_attr_gap n.reverse [] a v ha hv (by simp))
  simp [run, step, space, show nameChar ' ' = false by decide]

/-- The attributes `kvs`, written one after the other. -/
def attrText (kvs : List (Str × Str)) : Str := kvs.flatMap fun kv => svgAttr kv.1 kv.2

theorem attrText_append (a b : List (Str × Str)) : attrText (a ++ b) = attrText a ++ attrText b := by
  simp [attrText]

theorem run_attrs_post (n : Str) (attrs kvs : List (Str × Str)) (ha : ∀ kv ∈ kvs, Name kv.1)
    (hv : ∀ kv ∈ kvs, Plain kv.2) (hn : ((attrs ++ kvs).map Prod.fst).Nodup) :
    run (.post n attrs) (attrText kvs) = some (.post n (attrs ++ kvs), []) := by
  induction kvs generalizing attrs with
  | nil => simp [attrText, run]
  | cons kv kvs ih =>
    have hk : kv.1 ∉ attrs.map Prod.fst := by
      rw [List.map_append, List.nodup_append] at hn
      intro hc
      exact hn.2.2 _ hc _ (by simp) rfl
    have e : attrText (kv :: kvs) = svgAttr kv.1 kv.2 ++ attrText kvs := rfl
    rw [e]
    have := run_trans (run_attr_post n attrs kv.1 kv.2 (ha kv (by simp)) (hv kv (by simp)) hk)
      (ih (attrs ++ [kv]) (fun x hx => ha x (by simp [hx])) (fun x hx => hv x (by simp [hx])) (by simpa using hn))
    simpa using this

theorem run_attrs_name (n : Str) (kvs : List (Str × Str)) (hne : kvs ≠ []) (ha : ∀ kv ∈ kvs, Name kv.1)
    (hv : ∀ kv ∈ kvs, Plain kv.2) (hn : (kvs.map Prod.fst).Nodup) :
    run (.name n) (attrText kvs) = some (.post n.reverse kvs, []) := by
  obtain ⟨kv, kvs, rfl⟩ := List.exists_cons_of_ne_nil hne
  have e : attrText (kv :: kvs) = svgAttr kv.1 kv.2 ++ attrText kvs := rfl
  rw [e]
  exact run_trans (run_attr_name n kv.1 kv.2 (ha kv (by simp)) (hv kv (by simp)))
    (run_attrs_post n.reverse [kv] kvs (fun x hx => ha x (by simp [hx])) (fun x hx => hv x (by simp [hx]))
      (by simpa using hn))

/-! ## Numbers, colours, paths -/

theorem digit_plain : ∀ d, d < 10 → digit d ≠ '"' ∧ digit d ≠ '<' ∧ digit d ≠ '&' := by decide

theorem nat_plain {s : Str} {n : Nat} (h : NatDenotes s n) : Plain s := by
  obtain ⟨ds, -, hd, -, rfl, -⟩ := h
  intro c hc
  obtain ⟨d, h1, rfl⟩ := List.mem_map.1 hc
  exact digit_plain d (hd d h1)

theorem plain_append {a b : Str} (ha : Plain a) (hb : Plain b) : Plain (a ++ b) := by
  intro c hc
  rcases List.mem_append.1 hc with h | h
  · exact ha c h
  · exact hb c h

theorem int_plain {s : Str} {z : ℤ} (h : IntDenotes s z) : Plain s := by
  rcases h with ⟨-, h⟩ | ⟨-, r, rfl, h⟩
  · exact nat_plain h
  · intro c hc
    rcases List.mem_cons.1 hc with rfl | hc
    · decide
    · exact nat_plain h c hc

theorem fixed_plain {p : Nat} {s : Str} {v : ℝ} (h : FixedDenotes p s v) : Plain s := by
  obtain ⟨neg, whole, n, frac, h1, h2, -, rfl, -⟩ := h
  refine plain_append (plain_append ?_ (nat_plain h1)) ?_
  · cases neg
    · intro c hc; simp at hc
    · intro c hc; simp at hc; subst hc; decide
  · split
    · intro c hc; simp at hc
    · intro c hc
      rcases List.mem_cons.1 hc with rfl | hc
      · decide
      · obtain ⟨d, h3, rfl⟩ := List.mem_map.1 hc
        exact digit_plain d (h2 d h3)

theorem num_plain {s : Str} {x : ℝ} (h : Num s x) : Plain s := by
  rcases h with ⟨z, h, -⟩ | ⟨v, h, -⟩
  · exact int_plain h
  · exact fixed_plain h

theorem svgNumber_num {x : ℝ} {s : Str} (h : svgNumber x = some s) : Num s x := by
  unfold svgNumber at h
  split at h
  · next hx =>
    split at h
    · cases h
      exact .inl ⟨⌊x⌋, intText_denotes _, hx⟩
    · simp at h
  · cases h
    obtain ⟨v, h1, h2⟩ := fixedText_denotes 3 x
    refine .inr ⟨v, h1, le_trans h2 (by norm_num)⟩

theorem one_num : Num ['1'] 1 :=
  .inl ⟨1, .inl ⟨by norm_num, [1], by simp, by simp, by simp, rfl, rfl⟩, by norm_num⟩

theorem joinSp_words (ts : List Str) : Words (joinSp ts) ts := by
  unfold Words
  induction ts with
  | nil => rfl
  | cons t ts ih =>
    cases ts with
    | nil => simp [joinSp, List.intercalate]
    | cons u us =>
      rw [joinSp, ih]
      · simp [List.intercalate]
      · simp

theorem mapM_forall {α β : Type} {f : α → Option β} {R : β → α → Prop} (hf : ∀ a b, f a = some b → R b a) {l : List α}
    {r : List β} (h : l.mapM f = some r) : List.Forall₂ R r l := by
  induction l generalizing r with
  | nil => simp at h; subst h; exact .nil
  | cons a l ih =>
    rw [List.mapM_cons] at h
    cases ha : f a with
    | none => simp [ha] at h
    | some b =>
      cases hl : l.mapM f with
      | none => simp [ha, hl] at h
      | some bs =>
        simp [ha, hl] at h
        subst h
        exact .cons (hf a b ha) (ih hl)

theorem nums_of_mapM {xs : List ℝ} {ts : List Str} (h : xs.mapM svgNumber = some ts) : Nums (joinSp ts) xs :=
  ⟨ts, joinSp_words ts, mapM_forall (fun _ _ => svgNumber_num) h⟩

theorem svgCmd_cmd {c : PathCmd} {s : Str} (h : svgCmd c = some s) : Cmd s c := by
  unfold svgCmd at h
  cases hm : (svgCmdParts c).2.mapM svgNumber with
  | none => rw [hm] at h; simp at h
  | some ts =>
    rw [hm] at h
    simp only [Option.map_some, Option.some.injEq] at h
    have := nums_of_mapM hm
    subst h
    cases c with
    | moveTo x y => exact ⟨_, rfl, this⟩
    | lineTo x y => exact ⟨_, rfl, this⟩
    | quadTo a b x y => exact ⟨_, rfl, this⟩
    | cubicTo a b c d x y => exact ⟨_, rfl, this⟩
    | close =>
      simp [svgCmdParts] at hm
      subst hm
      rfl

theorem words_plain {s : Str} {ts : List Str} (h : Words s ts) (hp : ∀ t ∈ ts, Plain t) : Plain s := by
  have : s = joinSp ts := by rw [h, joinSp_words ts]
  subst this
  clear h
  induction ts with
  | nil => intro c hc; simp [joinSp] at hc
  | cons t ts ih =>
    cases ts with
    | nil => simpa [joinSp] using hp t (by simp)
    | cons u us =>
      rw [joinSp]
      · refine plain_append (hp t (by simp)) ?_
        intro c hc
        rcases List.mem_cons.1 hc with rfl | hc
        · decide
        · exact ih (fun x hx => hp x (by simp [hx])) c hc
      · simp

theorem forall₂_left {α β : Type} {R : α → β → Prop} {P : α → Prop} (hR : ∀ a b, R a b → P a) {l : List α}
    {r : List β} (h : List.Forall₂ R l r) : ∀ a ∈ l, P a := by
  induction h with
  | nil => simp
  | cons h _ ih =>
    intro a ha
    rcases List.mem_cons.1 ha with rfl | ha
    · exact hR _ _ h
    · exact ih a ha

theorem nums_plain {s : Str} {xs : List ℝ} (h : Nums s xs) : Plain s := by
  obtain ⟨ts, h1, h2⟩ := h
  exact words_plain h1 (forall₂_left (P := Plain) (fun _ _ => num_plain) h2)

theorem plain_cons {c : Char} {s : Str} (hc : c ≠ '"' ∧ c ≠ '<' ∧ c ≠ '&') (hs : Plain s) : Plain (c :: s) := by
  intro x hx
  rcases List.mem_cons.1 hx with rfl | hx
  · exact hc
  · exact hs x hx

theorem cmd_plain {s : Str} {c : PathCmd} (h : Cmd s c) : Plain s := by
  cases c with
  | close => simp only [Cmd] at h; subst h; intro c hc; simp at hc; subst hc; decide
  | moveTo x y => obtain ⟨t, rfl, h⟩ := h; exact plain_cons (by decide) (nums_plain h)
  | lineTo x y => obtain ⟨t, rfl, h⟩ := h; exact plain_cons (by decide) (nums_plain h)
  | quadTo a b x y => obtain ⟨t, rfl, h⟩ := h; exact plain_cons (by decide) (nums_plain h)
  | cubicTo a b c d x y => obtain ⟨t, rfl, h⟩ := h; exact plain_cons (by decide) (nums_plain h)

theorem svgPathData_text {p : Path} {s : Str} (h : svgPathData p = some s) : PathText s p := by
  unfold svgPathData at h
  cases hm : p.mapM svgCmd with
  | none => rw [hm] at h; simp at h
  | some ts =>
    rw [hm] at h
    simp only [Option.map_some, Option.some.injEq] at h
    subst h
    exact ⟨ts, joinSp_words ts, mapM_forall (fun _ _ => svgCmd_cmd) hm⟩

theorem pathText_plain {s : Str} {p : Path} (h : PathText s p) : Plain s := by
  obtain ⟨ts, h1, h2⟩ := h
  exact words_plain h1 (forall₂_left (P := Plain) (fun _ _ => cmd_plain) h2)

/-- The projection turns the page upside down. -/
theorem transform_flip (height : ℝ) (p : Path) : pathTransform p (svgProj height) = p.map (SvgDoc.flip height) := by
  unfold pathTransform
  apply List.map_congr_left
  intro c _
  have h : ∀ x y, (svgProj height).apply x y = ⟨x, height - y⟩ := by
    intro x y
    simp [svgProj, Mat3.apply, Mat3.mulVec, Mat3.mul, translate2, scale2, Mat3.zero]
    ring
  cases c <;> simp [transformCmd, SvgDoc.flip, h]

theorem hexDigit_get : ∀ i, i < 16 → hexDigits[i]? = some (hexDigit i) := by decide

theorem hexDigit_plain : ∀ i, i < 16 → hexDigit i ≠ '"' ∧ hexDigit i ≠ '<' ∧ hexDigit i ≠ '&' := by decide

/-- A colour with all components between 0 and 1. -/
def Proper (c : Color) : Prop := (0 ≤ c.r ∧ c.r ≤ 1) ∧ (0 ≤ c.g ∧ c.g ≤ 1) ∧ (0 ≤ c.b ∧ c.b ≤ 1)

theorem channel_hex {x : ℝ} (h : 0 ≤ x ∧ x ≤ 1) : ∃ n : Nat, n < 256 ∧ Channel n x ∧
    hexPad2 (truncZ (x * 255)) = [hexDigit (n / 16), hexDigit (n % 16)] := by
  have h0 : 0 ≤ x * 255 := by nlinarith [h.1]
  have hf : truncZ (x * 255) = ⌊x * 255⌋ := by rw [truncZ, if_pos h0]
  have hfn : 0 ≤ ⌊x * 255⌋ := Int.floor_nonneg.2 h0
  obtain ⟨n, hn⟩ := Int.eq_ofNat_of_zero_le hfn
  have hle : ((n : ℤ) : ℝ) ≤ x * 255 := by
    rw [← hn]; exact Int.floor_le _
  have hlt : x * 255 < ((n : ℤ) : ℝ) + 1 := by
    rw [← hn]; exact Int.lt_floor_add_one _
  have hn256 : n < 256 := by
    have : ((n : ℤ) : ℝ) < 256 := by linarith [h.2]
    exact_mod_cast this
  refine ⟨n, hn256, ⟨by exact_mod_cast hle, by exact_mod_cast hlt⟩, ?_⟩
  rw [hf, hn]
  exact hexPad2_byte n hn256

theorem colorHex_text {c : Color} (h : Proper c) :
    ColorText (colorHexStr c false) c ∧ Plain (colorHexStr c false) ∧ colorHexStr c false ≠ "none".toList := by
  obtain ⟨r, hr, cr, er⟩ := channel_hex h.1
  obtain ⟨g, hg, cg, eg⟩ := channel_hex h.2.1
  obtain ⟨b, hb, cb, eb⟩ := channel_hex h.2.2
  have e : colorHexStr c false = ['#', hexDigit (r / 16), hexDigit (r % 16), hexDigit (g / 16), hexDigit (g % 16),
      hexDigit (b / 16), hexDigit (b % 16)] := by
    simp [colorHexStr, er, eg, eb]
  rw [e]
  refine ⟨⟨r, g, b, ⟨_, _, _, _, _, _, rfl, _, _, _, _, _, _, hexDigit_get _ (by omega), hexDigit_get _ (by omega),
    hexDigit_get _ (by omega), hexDigit_get _ (by omega), hexDigit_get _ (by omega), hexDigit_get _ (by omega),
    by omega, by omega, by omega⟩, cr, cg, cb⟩, ?_, by simp⟩
  refine plain_cons (by decide) ?_
  repeat' refine plain_cons (hexDigit_plain _ (by omega)) ?_
  intro c hc; simp at hc

theorem black_text {c : Color} (h : colorIsBlack c) : ColorText "#000000".toList c := by
  obtain ⟨h1, h2, h3⟩ := h
  refine ⟨0, 0, 0, ⟨'0', '0', '0', '0', '0', '0', by simp, 0, 0, 0, 0, 0, 0, by decide, by decide, by decide,
    by decide, by decide, by decide, rfl, rfl, rfl⟩, ?_, ?_, ?_⟩ <;> simp [Channel, h1, h2, h3]

end Clip
