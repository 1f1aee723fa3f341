import Verif.Proofs.WholeHost
import Verif.Proofs.Crash
import Verif.Proofs.ParserLemmas

/-! A run of the generator on texts without trouble. -/
namespace Sqldef
open Spec

theorem returns_parseDDL {env : Env} {mode : Mode} {text : Str} (hp : Returns (env.parse mode text))
    (hw : ∀ a, env.parse mode text = .ok (.ddl a) → WholeStatement mode a) : Returns (parseDDL env mode text) := by
  unfold parseDDL
  split
  · next e he => exact returns_error (fun h => hp (.inl (h ▸ he))) (fun h => hp (.inr (h ▸ he)))
  · next s hs =>
    cases s with
    | other => exact returns_error (by simp) (by simp)
    | ddl a => exact returns_convert env (hw a hs)

theorem parseDDL_says {env : Env} {mode : Mode} {text : Str} {d : DDL} (h : parseDDL env mode text = .ok d) :
    ∃ a, env.parse mode text = .ok (.ddl a) ∧ SaysTheSame mode text a d := by
  unfold parseDDL at h
  split at h
  · cases h
  · next s hs =>
    cases s with
    | other => cases h
    | ddl a => exact ⟨a, hs, saysTheSame_convert env mode _ a _ h⟩

theorem forall₂_mem_right {α β : Type} {R : α → β → Prop} {l : List α} {r : List β} (h : List.Forall₂ R l r) :
    ∀ b ∈ r, ∃ a ∈ l, R a b := by
  induction h with
  | nil => simp
  | @cons a b l r hab _ ih =>
    intro c hc
    rcases List.mem_cons.1 hc with rfl | hc
    · exact ⟨a, by simp, hab⟩
    · obtain ⟨x, hx, hr⟩ := ih c hc
      exact ⟨x, by simp [hx], hr⟩

theorem parseDDLs_says {env : Env} {mode : Mode} {text : Str} {ds : List DDL} (h : parseDDLs env mode text = .ok ds) :
    ∀ d ∈ ds, ∃ t ∈ statementTexts text, ∃ a, env.parse mode t = .ok (.ddl a) ∧ SaysTheSame mode t a d := by
  rw [parseDDLs_eq, mapM_ok_iff] at h
  intro d hd
  obtain ⟨t, ht, hp⟩ := forall₂_mem_right h d hd
  exact ⟨t, ht, parseDDL_says hp⟩

/-- If the parser returns for the statements of the two texts and what it builds is complete, the run returns. -/
theorem returns_run {env : Env} {mode : Mode} {desiredText currentText : Str}
    (hp : ∀ text, text ∈ statementTexts desiredText ++ statementTexts currentText → Returns (env.parse mode text) ∧
      ∀ a, env.parse mode text = .ok (.ddl a) → WholeStatement mode a)
    (ho : ∀ desired current, parseDDLs env mode desiredText = .ok desired → parseDDLs env mode currentText = .ok current →
      ObsoleteOnce desired current) : Returns (generateIdempotentDDLs env mode desiredText currentText) := by
  have h1 : Returns (parseDDLs env mode desiredText) := by
    rw [parseDDLs_eq]
    exact returns_mapM fun t ht => returns_parseDDL (hp t (by simp [ht])).1 (hp t (by simp [ht])).2
  have h2 : Returns (parseDDLs env mode currentText) := by
    rw [parseDDLs_eq]
    exact returns_mapM fun t ht => returns_parseDDL (hp t (by simp [ht])).1 (hp t (by simp [ht])).2
  refine returns_bind h1 fun desired hd => returns_bind h2 fun current hc =>
    returns_bind (returns_diff (fun d hd' => ?_) (fun d hc' => ?_) (ho desired current hd hc)) fun _ _ => returns_pure _
  · obtain ⟨t, ht, a, ha, hs⟩ := parseDDLs_says hd d hd'
    exact completeDesired_of_says hs ((hp t (by simp [ht])).2 a ha)
  · obtain ⟨t, ht, a, ha, hs⟩ := parseDDLs_says hc d hc'
    exact completeCurrent_of_says hs ((hp t (by simp [ht])).2 a ha)

namespace Sql
open Yy

/-- The token may follow, as a program. -/
def goodToken (m : Mode) (prev : Option TokenType) (t : Token) : Bool :=
  decide (t.type ≠ .code (lit "REPLICATION")) &&
  (decide (¬ (m = .mysql ∨ m = .mssql)) || decide (t.type ≠ .code (lit "USING"))) &&
  (decide (t.type ≠ .code (lit "TYPECAST")) || prev.any fun p => !decide (AsksOperand p))

/-- The tokens make no trouble, as a program. -/
def goodFrom (m : Mode) : Option TokenType → List Token → Bool
  | _, [] => true
  | prev, t :: ts => goodToken m prev t && goodFrom m (some t.type) ts

theorem goodFrom_holds {m : Mode} : ∀ {ts : List Token} {prev : Option TokenType}, goodFrom m prev ts = true → GoodFrom m prev ts
  | [], _, _ => trivial
  | t :: ts, prev, h => by
    simp only [goodFrom, goodToken, Bool.and_eq_true, decide_eq_true_eq, Bool.or_eq_true] at h
    obtain ⟨⟨⟨h1, h2⟩, h3⟩, h4⟩ := h
    refine ⟨⟨h1, fun hm => h2.resolve_left (fun hn => hn hm), fun hc => ?_⟩, goodFrom_holds h4⟩
    have h3 := h3.resolve_left (fun hn => hn hc)
    cases prev with
    | none => cases h3
    | some p => exact ⟨p, rfl, by simpa using h3⟩

theorem good_split {m : Mode} : ∀ {before : List Token} {prev : Option TokenType} {t : Token} {after : List Token},
    GoodFrom m prev (before ++ t :: after) → GoodToken m ((before.getLast?.map (·.type)).or prev) t
  | [], _, _, _, h => h.1
  | b :: bs, prev, t, after, h => by
    have := good_split h.2
    rw [List.getLast?_cons]
    cases hb : bs.getLast? with
    | none => rw [hb] at this; exact this
    | some p => rw [hb] at this; exact this

theorem troubleFree_of_good {m : Mode} {ts : List Token} (h : GoodFrom m none ts) : TroubleFree m ts where
  replication := by
    intro t ht
    obtain ⟨a, b, rfl⟩ := List.append_of_mem ht
    exact (good_split h).replication
  usings := by
    intro hm t ht
    obtain ⟨a, b, rfl⟩ := List.append_of_mem ht
    exact (good_split h).usings hm
  casts := by
    intro before t after he hc
    subst he
    obtain ⟨p, hp, hq⟩ := (good_split h).casts hc
    cases hb : before.getLast? with
    | none => rw [hb] at hp; cases hp
    | some q => rw [hb] at hp; cases hp; exact ⟨q, rfl, hq⟩

/-- The text makes no trouble, as a program. -/
def plainText (m : Mode) (text : Str) : Bool :=
  match scanAll (newScanner m text) with
  | .ok ts => goodFrom m none ts
  | .error _ => false

theorem plainText_holds {m : Mode} {text : Str} (h : plainText m text = true) : PlainText m text := by
  unfold plainText at h
  split at h
  · next ts hs => exact ⟨ts, hs, troubleFree_of_good (goodFrom_holds h)⟩
  · cases h

end Sql
end Sqldef
