import Verif.Spec.Xml
/-
Specification of comments written by the XML writer, without the restriction of `CommentOk`.
-/
namespace Verif
namespace Spec
open Xml

/-- A comment with the three markup characters spelled as entities. -/
def spelled : Str → Str
  | [] => []
  | '&' :: s => c!"&amp;" ++ spelled s
  | '<' :: s => c!"&lt;" ++ spelled s
  | '>' :: s => c!"&gt;" ++ spelled s
  | c :: s => c :: spelled s

/-- As `CallOk`, with every comment XML has room for: legal characters, no "--" (XML 1.0 §2.5). -/
def CallOkC : Call → Prop
  | .comment s => TextOk s ∧ ¬ c!"--" <:+: s
  | c => CallOk c

/-- The same call with the comment spelled out. -/
def asSpelled : Call → Call
  | .comment s => .comment (spelled s)
  | c => c

end Spec
end Verif
