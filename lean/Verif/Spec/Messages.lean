import Verif.Model.Sexpr
/-! # What an error message tells the user -/
namespace Clip.Messages

/-- `'a', 'b', 'c'` -/
inductive Quoted : Str → List Str → Prop
  | one (w : Str) : Quoted ('\'' :: w ++ ['\'']) [w]
  | more (w : Str) {t ws} : Quoted t ws → Quoted ('\'' :: w ++ ['\'', ',', ' '] ++ t) (w :: ws)

/-- One line `  - a` for each. -/
inductive Lines : Str → List Str → Prop
  | nil : Lines [] []
  | cons (w : Str) {t ws} : Lines t ws → Lines (' ' :: ' ' :: '-' :: ' ' :: w ++ '\n' :: t) (w :: ws)

/-- The message shows the refused value and then, "expected one of", names the words `ws`: in quotes with commas
(the last one perhaps after "or"), or one on each line, at the end of the message; or in parentheses before the value;
or two words, in quotes, before the value. -/
inductive Advises (value : Str) : Str → List Str → Prop
  | quoted (a b : Str) {t ws} : Quoted t ws →
      Advises value (a ++ '\'' :: value ++ '\'' :: b ++ "expected one of: ".toList ++ t) ws
  | or (a b w : Str) {t ws} : Quoted t ws →
      Advises value (a ++ '\'' :: value ++ '\'' :: b ++ "expected one of ".toList ++ t ++ " or '".toList ++ w ++ ['\''])
        (ws ++ [w])
  | lines (a b : Str) {t ws} : Lines t ws →
      Advises value (a ++ '\'' :: value ++ '\'' :: b ++ "expected one of: \n".toList ++ t) ws
  | parens (a b v w : Str) :
      Advises value (a ++ "expected one of (".toList ++ v ++ ", ".toList ++ w ++ ')' :: b ++ '\'' :: value ++ ['\'']) [v, w]
  | either (a b v w : Str) : Advises value (a ++ "expected '".toList ++ v ++ "' or '".toList ++ w ++ "', ".toList ++ b ++ value) [v, w]

end Clip.Messages
