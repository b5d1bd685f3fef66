import Verif.Spec.PlistSyntax
/-!
# Ways to write the same document (specification)
-/
namespace Clip.PlistSyntax

/-- The same token, up to quotes around the name of a property. -/
inductive SameToken : PTok → PTok → Prop
  | same (t) : SameToken t t
  | quote (s) : SameToken (.str s) (.quoted s)
  | unquote (s) : SameToken (.quoted s) (.str s)

/-- The next token, commas apart, is a colon or an opening brace: the token before is a name. -/
def beforeColon : List PTok → Bool
  | .comma :: ts => beforeColon ts
  | .colon :: _ => true
  | .lcbrace :: _ => true
  | _ => false

/-- The same tokens, up to commas and up to quotes around names. -/
inductive SameWriting : List PTok → List PTok → Prop
  | nil : SameWriting [] []
  | comma {ts us} : SameWriting ts us → SameWriting (.comma :: ts) us
  | comma' {ts us} : SameWriting ts us → SameWriting ts (.comma :: us)
  | tok {t ts us} : t ≠ .comma → SameWriting ts us → SameWriting (t :: ts) (t :: us)
  | name {t u ts us} : SameToken t u → beforeColon ts = true → SameWriting ts us →
      SameWriting (t :: ts) (u :: us)

end Clip.PlistSyntax
