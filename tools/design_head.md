# DESIGN — a Lean 4 model of clip (paulasmuth/fnordmetric, pinned commit)

The repository at the pinned commit is `clip`, a C++ program that turns a text document (property list /
s-expression) plus CSV, GeoJSON or inline data into a chart or a drawing and exports it as SVG.  The code was only
read, never built or run.  (This file is assembled by `tools/design.py`; the tables of sections 3, 6 and 7 are generated
from `properties.jsonl`, `tools/claims.txt`, the citations in the model, and `#print axioms`.)

## 1. Layout

* `lean/Verif/Model/*.lean` — the model, one file per source unit.  Every definition cites
  file and lines in `/repo`, and says where it simplifies.
* `lean/Verif/Spec/*.lean` — small specifications independent of the model (printers, calendars, UTF-8
  bit layout, what an SVG document shows, the meaning of a style, pictures as lists of paints, ...).  Some short
  specifications stand at the top of the file of their theorems, under a heading "Specification".
* `lean/Verif/Lemmas/*.lean` — helper lemmas.
* `lean/Verif/Props/*.lean` — the property theorems (named `Cnn_...`), with an `example` beside them showing that the
  hypotheses are met by a non-trivial case.
* `MANIFEST.json` — property → theorem names, status.
* `seeded/LOG.jsonl` — log of the wrong programs tried against the theorems, and the theorems tightened because of them.

A theorem whose name ends in `_partial` needs a hypothesis that the English property does not have.  In every such
case the reason is that the code violates the property without it; the violation is proved as a theorem of its own, listed
under the same property.  A property is `partial` in the manifest exactly when such a violation exists (or a part of the
statement is missing, which the note then says).

## 2. Modelling conventions

* Text: `Str = List Char`; bytes `UInt8`.  Where the code works on `char` and the property depends on bytes
  (UTF-8, buffers, images, hex dumps) the model works on bytes.
* C++ pointers to mutable results become returned values; `ReturnCode` becomes `Except`/`Option`/`Outcome`.
* Loops become structural recursion, a `foldl`, a step relation, or recursion over fuel with a distinct outcome; the
  termination theorems then state which fuel suffices, or that none does.
* Undefined behaviour, uncaught exceptions and endless loops are distinct outcomes (`Outcome.undefined`, `.thrown`,
  divergence), never totalised away.
* `double`.  Scales, ticks and limits are modelled over `ℝ` with a rounding parameter `Arith` (an arbitrary monotone
  rounding; `Arith.exact` is the identity), because there the properties depend on it.  Geometry (vectors, matrices,
  paths, layout, hatching, units, text placement) is modelled in exact real arithmetic; NaN, where the code produces it
  (division by zero), is the outcome `none`.  Infinities and signed zeros are not modelled.  Colour channels are exact
  rationals n/255 where single precision is exact.
* `size_t`/`uint64_t` are `Nat` unless the property is about wrap-around (times: `BitVec 64`).
* External code is a parameter, or modelled from its documentation: `std::stod` (number reader parameter), `getopt_long`
  (modelled from its documentation), `printf("%f")`-like formatting (exact decimal rounding, half to even), fribidi levels,
  harfbuzz shaping and FreeType outlines and fontconfig look-up (parameters, structure `TextEnv`), the file system (read: a
  partial function; write: a sequence of `open(O_TRUNC)` and partial `write` steps), char conversions as done by gcc on x86.

