import Verif.Model.Api
/-!
# C101: the C interface
-/
namespace Clip
noncomputable section

/-- The message that the last refused format left, `start` if there was none. -/
def lastMessage (start : Str) : List ApiCall → Str
  | [] => start
  | .setFormat f :: cs =>
    lastMessage (if f = "svg".toList ∨ f = "png".toList then start else "invalid output format: ".toList ++ f) cs
  | _ :: cs => lastMessage start cs

theorem lastMessage_append (start : Str) (a b : List ApiCall) : lastMessage start (a ++ b) = lastMessage (lastMessage start a) b := by
  induction a generalizing start with
  | nil => rfl
  | cons c a ih => cases c <;> simp only [List.cons_append, lastMessage, ih]

theorem apiRun_state (ctx : ApiContext) (cs : List ApiCall) :
    (apiRun ctx cs).1.buffer = ctx.buffer ∧ (apiRun ctx cs).1.message = lastMessage ctx.message cs := by
  induction cs generalizing ctx with
  | nil => exact ⟨rfl, rfl⟩
  | cons c cs ih =>
    simp only [apiRun]
    obtain ⟨h1, h2⟩ := ih (apiStep ctx c).1
    rw [h1, h2]
    cases c with
    | setFormat f =>
      simp only [apiStep, lastMessage, clipSetFormat]
      by_cases a : f = ['s', 'v', 'g']
      · rw [if_pos a, if_pos (.inl a)]; exact ⟨rfl, rfl⟩
      · by_cases b : f = ['p', 'n', 'g']
        · rw [if_neg a, if_pos b, if_pos (.inr b)]; exact ⟨rfl, rfl⟩
        · rw [if_neg a, if_neg b, if_neg (show ¬ (f = "svg".toList ∨ f = "png".toList) from fun h => h.elim a b)]; exact ⟨rfl, rfl⟩
    | _ => exact ⟨rfl, rfl⟩

theorem apiRun_append (ctx : ApiContext) (a b : List ApiCall) :
    (apiRun ctx (a ++ b)).2 = (apiRun ctx a).2 ++ (apiRun (apiRun ctx a).1 b).2 := by
  induction a generalizing ctx with
  | nil => rfl
  | cons c a ih => simp [apiRun, ih]

theorem apiRun_length (ctx : ApiContext) (a : List ApiCall) : (apiRun ctx a).2.length = a.length := by
  induction a generalizing ctx with
  | nil => rfl
  | cons c a ih => simp [apiRun, ih]

theorem apiRun_at (ctx : ApiContext) (a : List ApiCall) (c : ApiCall) (b : List ApiCall) :
    (apiRun ctx (a ++ c :: b)).2[a.length]? = some (apiStep (apiRun ctx a).1 c).2 := by
  rw [apiRun_append, List.getElem?_append_right (Nat.le_of_eq (apiRun_length ctx a)), apiRun_length]
  simp [apiRun]

/-- C101, violated by the code: in every history of calls of the C interface, evaluating any text reports success, and the
result is empty: nothing is evaluated. -/
theorem C101_eval_ignored (before : List ApiCall) (after : List ApiCall) :
    (∀ text, (apiRun clipInit (before ++ .eval text :: after)).2[before.length]? = some (.code 1)) ∧
    (apiRun clipInit (before ++ .getResult :: after)).2[before.length]? = some (.data []) := by
  constructor
  · intro text; rw [apiRun_at]; rfl
  · rw [apiRun_at]
    show some (ApiReply.data (apiRun clipInit before).1.buffer) = _
    rw [(apiRun_state clipInit before).1]; rfl

/-- C101: setting the format succeeds exactly for `svg` and `png`, and the error message is that of the last refused format. -/
theorem C101_format (before after : List ApiCall) (fmt : Str) :
    (apiRun clipInit (before ++ .setFormat fmt :: after)).2[before.length]? =
      some (.code (if fmt = "svg".toList ∨ fmt = "png".toList then 1 else 0)) ∧
    (apiRun clipInit (before ++ .getError :: after)).2[before.length]? = some (.data (lastMessage [] before)) := by
  constructor
  · rw [apiRun_at]
    simp only [apiStep, clipSetFormat]
    by_cases a : fmt = ['s', 'v', 'g']
    · rw [if_pos a, if_pos (.inl a)]
    · by_cases b : fmt = ['p', 'n', 'g']
      · rw [if_neg a, if_pos b, if_pos (.inr b)]
      · rw [if_neg a, if_neg b, if_neg (show ¬ (fmt = "svg".toList ∨ fmt = "png".toList) from fun h => h.elim a b)]
  · rw [apiRun_at]
    show some (ApiReply.data (apiRun clipInit before).1.message) = _
    rw [(apiRun_state clipInit before).2]; rfl

example : lastMessage [] [.setFormat "gif".toList, .eval "x".toList, .setFormat "svg".toList] = "invalid output format: gif".toList := by
  decide

/-- The last of the accepted formats, `start` if there was none. -/
def lastFormat (start : OutputFormat) : List ApiCall → OutputFormat
  | [] => start
  | .setFormat f :: cs => lastFormat (if f = "svg".toList then .svg else if f = "png".toList then .png else start) cs
  | _ :: cs => lastFormat start cs

/-- C101: after every history of calls, the format that is set is the last accepted one (SVG at first), and the context is in
order exactly if no format was refused. -/
theorem C101_state (cs : List ApiCall) :
    (apiRun clipInit cs).1.format = lastFormat .svg cs ∧
    ((apiRun clipInit cs).1.ok = true ↔ ∀ f, ApiCall.setFormat f ∈ cs → f = "svg".toList ∨ f = "png".toList) := by
  have key : ∀ (cs : List ApiCall) (ctx : ApiContext), (apiRun ctx cs).1.format = lastFormat ctx.format cs ∧
      ((apiRun ctx cs).1.ok = true ↔ ctx.ok = true ∧ ∀ f, ApiCall.setFormat f ∈ cs → f = "svg".toList ∨ f = "png".toList) := by
    intro cs
    induction cs with
    | nil => intro ctx; exact ⟨rfl, by simp [apiRun]⟩
    | cons c cs ih =>
      intro ctx
      simp only [apiRun]
      obtain ⟨h1, h2⟩ := ih (apiStep ctx c).1
      rw [h1, h2]
      cases c with
      | setFormat f =>
        simp only [apiStep, lastFormat, clipSetFormat, List.mem_cons, ApiCall.setFormat.injEq]
        by_cases a : f = ['s', 'v', 'g']
        · rw [if_pos a]
          refine ⟨by rw [if_pos (show f = "svg".toList from a)], and_congr_right fun _ => ⟨?_, fun h g hg => h g (.inr hg)⟩⟩
          rintro h g (rfl | hg)
          · exact .inl a
          · exact h g hg
        · by_cases b : f = ['p', 'n', 'g']
          · rw [if_neg a, if_pos b]
            refine ⟨by rw [if_neg (show ¬ f = "svg".toList from a), if_pos (show f = "png".toList from b)],
              and_congr_right fun _ => ⟨?_, fun h g hg => h g (.inr hg)⟩⟩
            rintro h g (rfl | hg)
            · exact .inr b
            · exact h g hg
          · rw [if_neg a, if_neg b]
            refine ⟨by rw [if_neg (show ¬ f = "svg".toList from a), if_neg (show ¬ f = "png".toList from b)], ?_⟩
            constructor
            · rintro ⟨h, -⟩; cases h
            · rintro ⟨-, h⟩
              exact ((h f (.inl rfl)).elim a b).elim
      | _ => simp [apiStep, lastFormat, clipEval]
  have := key cs clipInit
  exact ⟨this.1, this.2.trans (and_iff_right rfl)⟩

example : lastFormat .svg [.setFormat "png".toList, .setFormat "gif".toList] = .png := rfl

end
end Clip
