import Verif.Model.Cli
/-!
# Model of `src/api.cc`, `src/api.h`: the C interface

The function that api.h:63 declares as `clip_set_output_format(ctx, format)` is not defined (api.cc:62-77 defines an overload with
another parameter list, outside `extern "C"`); it is modelled as that overload, `setFormat`.
-/
namespace Clip
noncomputable section

/-- api.cc:24-28 `struct clip_s`, with return_code.h:29-40 (code and message of the last error). -/
structure ApiContext where
  format : OutputFormat
  buffer : Str
  ok : Bool
  message : Str

/-- api.cc:30-34 `clip_init`. -/
def clipInit : ApiContext := ⟨.svg, [], true, []⟩

/-- api.cc:48-54 `clip_eval`: the body is commented out. The result is the value of `OK`, 1. -/
def clipEval (ctx : ApiContext) (_expr : Str) : ApiContext × Nat := (ctx, 1)

/-- api.cc:56-59 `clip_get_result`. -/
def clipGetResult (ctx : ApiContext) : Str := ctx.buffer

/-- api.cc:40-42 `clip_get_error`. -/
def clipGetError (ctx : ApiContext) : Str := ctx.message

/-- api.cc:61-77 `clip_set_output_format`; the second parameter is not used. -/
def clipSetFormat (ctx : ApiContext) (fmt : Str) : ApiContext × Nat :=
  if fmt = ['s', 'v', 'g'] then ({ ctx with format := .svg }, 1)
  else if fmt = ['p', 'n', 'g'] then ({ ctx with format := .png }, 1)
  else ({ ctx with ok := false, message := "invalid output format: ".toList ++ fmt }, 0)

/-- A call of the interface. -/
inductive ApiCall where
  | eval (expr : Str)
  | setFormat (fmt : Str)
  | getResult
  | getError

/-- What a call returns. -/
inductive ApiReply where
  | code (n : Nat)
  | data (s : Str)

/-- api.cc:36-77: one call. -/
def apiStep (ctx : ApiContext) : ApiCall → ApiContext × ApiReply
  | .eval e => ((clipEval ctx e).1, .code (clipEval ctx e).2)
  | .setFormat f => ((clipSetFormat ctx f).1, .code (clipSetFormat ctx f).2)
  | .getResult => (ctx, .data (clipGetResult ctx))
  | .getError => (ctx, .data (clipGetError ctx))

/-- A history of calls on a new context: the replies. -/
def apiRun (ctx : ApiContext) : List ApiCall → ApiContext × List ApiReply
  | [] => (ctx, [])
  | c :: cs =>
    let r := apiStep ctx c
    let q := apiRun r.1 cs
    (q.1, r.2 :: q.2)

end
end Clip
