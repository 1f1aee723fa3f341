import Verif.Spec.Rearranged
import Verif.Props.Views
/-
Files with tables, views and triggers that differ in order only.
-/
namespace Sqldef.Spec.Written

/-- The same statement; what is between the parentheses of a CREATE TABLE may be in another order. -/
inductive SameStatement : Statement → Statement → Prop
  | sentence {s r : Sentence} : SameItems s r → SameStatement (.sentence s) (.sentence r)
  | view (v : NewView) : SameStatement (.view v) (.view v)
  | trigger (t : NewTrigger) : SameStatement (.trigger t) (.trigger t)

end Sqldef.Spec.Written
