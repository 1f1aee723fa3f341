import Verif.Spec.Layout
import Verif.Spec.Text
import Mathlib.Data.List.Forall2
/-
A schema that is written anew: every statement keeps its tokens, in another layout.
-/
namespace Sqldef.Spec

/-- Two texts that are written with the same tokens. -/
def SameTokens (mode : Mode) (a b : Str) : Prop := ∃ ts, Layout mode a ts ∧ Layout mode b ts

/-- Two files that have the same statements, one by one, up to the layout of their tokens. -/
def Rewritten (mode : Mode) (file file' : Str) : Prop :=
  List.Forall₂ (SameTokens mode) (statementTexts file) (statementTexts file')

/-- Two files that have the same statements up to the layout of their tokens, in whatever order. -/
def Reordered (mode : Mode) (file file' : Str) : Prop :=
  ∃ texts, List.Forall₂ (SameTokens mode) (statementTexts file) texts ∧ texts.Perm (statementTexts file')

end Sqldef.Spec
