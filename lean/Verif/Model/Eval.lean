import Verif.Model.Sexpr
/-!
# Model of `src/sexpr_util.cc` (command dispatch), `src/eval.cc`, `src/draw.cc`, `src/plot/plotgen.cc`
(command tables) and `try_chain` of `src/return_code.h`

Handlers are arbitrary functions on an abstract context `σ` (everything a C++ handler can reach
through its bound pointers); a handler returns the new context and `none` for `OK` or `some e` for an
error `e : ε`.
-/
namespace Clip

/-- sexpr_util.h `ExprVisitor`: called with the argument chain. -/
abbrev Handler (σ ε : Type) := List Expr → σ → σ × Option ε

/-- The `std::unordered_map<std::string, ExprVisitor>` argument: lookup by name. -/
abbrev HandlerMap (σ ε : Type) := Str → Option (Handler σ ε)

inductive WalkErr (ε : Type) where
  | notList
  | notLiteral
  | invalidCommand (name : Str)
  | handler (e : ε)
  deriving DecidableEq

/-- sexpr_util.cc:55-91 `expr_walk_map`.  `unparsed = none` is the null pointer (strict mode).
Otherwise it is a pair `(out, tail)`: `*unparsed = expr_clone(expr)` (line 73) stores a copy of the
*whole remaining chain*; then `unparsed` moves to the `next` slot of the first copied node (74), so that
`out` is final and `tail` (the rest of the copy) is overwritten by the next such assignment only. -/
def walkMap {σ ε : Type} (fns : HandlerMap σ ε) (unparsed : Option (List Expr × List Expr)) :
    List Expr → σ → σ × Except (WalkErr ε) (Option (List Expr × List Expr))
  | [], s => (s, .ok unparsed)
  | e :: rest, s =>
    match e with
    | .list (arg0 :: args) =>
      if arg0.isValue then
        match fns arg0.getValue with
        | none =>
          match unparsed with
          | some (out, _) =>
            match exprCloneAll (.list (arg0 :: args) :: rest) with
            | c :: tail => walkMap fns (some (out ++ [c], tail)) rest s
            | [] => walkMap fns unparsed rest s          -- not reachable: the copy is not empty
          | none => (s, .error (.invalidCommand arg0.getValue))
        | some fn =>
          match fn args s with
          | (s', none) => walkMap fns unparsed rest s'
          | (s', some err) => (s', .error (.handler err))
      else (s, .error .notLiteral)
    | .list [] => (s, .error .notLiteral)                -- `args` is null, line 65
    | _ => (s, .error .notList)

/-- sexpr_util.cc:32-42 with `strict = true`: `expr_walk_map(expr, nullptr, fns)`. -/
def walkStrict {σ ε : Type} (fns : HandlerMap σ ε) (cmds : List Expr) (s : σ) :
    σ × Except (WalkErr ε) Unit :=
  match walkMap fns none cmds s with
  | (s', .ok _) => (s', .ok ())
  | (s', .error e) => (s', .error e)

/-- A walk with an `unparsed` output that is empty before (eval.cc:56-58): returns the chain that ends up
in it. -/
def walkUnparsed {σ ε : Type} (fns : HandlerMap σ ε) (cmds : List Expr) (s : σ) :
    σ × Except (WalkErr ε) (List Expr) :=
  match walkMap fns (some ([], [])) cmds s with
  | (s', .ok (some (out, tail))) => (s', .ok (out ++ tail))
  | (s', .ok none) => (s', .ok [])
  | (s', .error e) => (s', .error e)

/-- sexpr_util.cc:93-127 `expr_walk_tmap`.  Line 121 tests `expr` (the first element of the
parameter's own list) instead of `iter`: the walk ends after the first parameter without arguments. -/
def walkTmap {σ ε : Type} (fns : HandlerMap σ ε) (strict : Bool) :
    List Expr → σ → σ × Except (WalkErr ε) Unit
  | [], s => (s, .ok ())
  | e :: rest, s =>
    match e with
    | .list (arg0 :: args) =>
      if arg0.isValue then
        match fns arg0.getValue with
        | none =>
          if strict then (s, .error (.invalidCommand arg0.getValue))
          else if args.isEmpty then (s, .ok ()) else walkTmap fns strict rest s
        | some fn =>
          match fn args s with
          | (s', none) => if args.isEmpty then (s', .ok ()) else walkTmap fns strict rest s'
          | (s', some err) => (s', .error (.handler err))
      else (s, .error .notLiteral)
    | .list [] => (s, .error .notLiteral)
    | _ => (s, .error .notList)

/-- sexpr_util.cc:129-139 `expr_calln` and return_code.h:58-67 `try_chain`: run the steps in order until
one fails. -/
def tryChain {σ ε : Type} : List (σ → σ × Option ε) → σ → σ × Option ε
  | [], s => (s, none)
  | o :: os, s =>
    match o s with
    | (s', none) => tryChain os s'
    | (s', some e) => (s', some e)

inductive EvalErr (ε : Type) where
  | walk (e : WalkErr ε)
  | noModule
  | invalidModule (name : Str)
  | module (e : ε)
  | expectedValue
  deriving DecidableEq

/-- sexpr_conv.cc:25-34 `expr_to_string` bound to the module name (eval.cc:57). -/
def exprToString (args : List Expr) : Option Str :=
  match args with
  | e :: _ => if e.isValue then some e.getValue else none
  | [] => none

/-- The command table of `eval` (eval.cc:56-62): `class` sets the module name, the rest are the
context settings `size`, `dpi`, `font`, `font-size`. -/
def evalTable {σ ε : Type} (settings : HandlerMap σ ε) : HandlerMap (σ × Str) (Option ε) :=
  fun name =>
    if name = "class".toList then
      some fun args s =>
        match exprToString args with
        | some m => ((s.1, m), none)
        | none => (s, some none)
    else if name = "size".toList ∨ name = "dpi".toList ∨ name = "font".toList ∨
        name = "font-size".toList then
      (settings name).map fun h => fun args s =>
        match h args s.1 with
        | (c, none) => ((c, s.2), none)
        | (c, some e) => ((c, s.2), some (some e))
    else none

/-- eval.cc:45-92 `eval(Context*, const Expr*)`.  `modules` is `MODULES` (eval.cc:40-43).
`&*module_args` (86) dereferences a null `unique_ptr` when nothing is left over; the model passes the
empty chain. -/
def evalExpr {σ ε : Type} (settings : HandlerMap σ ε)
    (modules : Str → Option (List Expr → σ → σ × Option ε)) (doc : List Expr) (s : σ) :
    σ × Except (EvalErr (Option ε)) Unit :=
  match walkUnparsed (evalTable settings) doc (s, "plot".toList) with
  | ((s', _), .error e) => (s', .error (.walk e))
  | ((s', name), .ok unparsed) =>
    if name = [] then (s', .error .noModule)
    else
      match modules name with
      | none => (s', .error (.invalidModule name))
      | some m =>
        match m unparsed s' with
        | (s'', none) => (s'', .ok ())
        | (s'', some e) => (s'', .error (.module (some e)))

/-- plot/plotgen.cc:43-73, 75-115 `plot_prepare` and `plot_draw`: a pass-through walk whose left-over
commands are dropped. -/
def walkLax {σ ε : Type} (fns : HandlerMap σ ε) (cmds : List Expr) (s : σ) :
    σ × Except (WalkErr ε) Unit :=
  match walkUnparsed fns cmds s with
  | (s', .ok _) => (s', .ok ())
  | (s', .error e) => (s', .error e)

/-- plot/plotgen.cc:117-133 `plot_eval`: prepare (scale limits, autoranging), then draw. -/
def plotEval {σ ε : Type} (prepare draw : HandlerMap σ ε) (cmds : List Expr) (s : σ) :
    σ × Except (WalkErr ε) Unit :=
  match walkLax prepare cmds s with
  | (s', .error e) => (s', .error e)
  | (s', .ok ()) => walkLax draw cmds s'

/-- draw.cc:23-35 `draw_eval`: a strict walk. -/
def drawEval {σ ε : Type} (fns : HandlerMap σ ε) (cmds : List Expr) (s : σ) :
    σ × Except (WalkErr ε) Unit :=
  walkStrict fns cmds s

end Clip
