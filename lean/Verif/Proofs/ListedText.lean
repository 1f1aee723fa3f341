import Verif.Proofs.Listed
import Verif.Proofs.AnyOrder
/-
The order in which servers list what they have decides the order of removals only.
-/
namespace Sqldef
open Spec Written Dumped

theorem generate_ok_iff {env : Env} {mode : Mode} {desired current : Str} {out : List Str} :
    generateIdempotentDDLs env mode desired current = .ok out ↔ ∃ des cur stmts, parseDDLs env mode desired = .ok des ∧
      parseDDLs env mode current = .ok cur ∧ diff mode des cur = .ok stmts ∧ out = stmts.map (Stmt.render mode) := by
  unfold generateIdempotentDDLs
  cases parseDDLs env mode desired with
  | error e => exact ⟨fun h => (by cases h), fun ⟨_, _, _, h, _⟩ => by cases h⟩
  | ok des =>
    cases parseDDLs env mode current with
    | error e => exact ⟨fun h => (by cases h), fun ⟨_, _, _, _, h, _⟩ => by cases h⟩
    | ok cur =>
      change (diff mode des cur >>= fun l => pure (l.map (Stmt.render mode))) = .ok out ↔ _
      cases hx : diff mode des cur with
      | error e =>
        refine ⟨fun h => (by cases h), ?_⟩
        rintro ⟨_, _, _, ⟨⟩, ⟨⟩, h, _⟩
        rw [hx] at h
        cases h
      | ok l =>
        constructor
        · intro h
          cases h
          exact ⟨des, cur, l, rfl, rfl, hx, rfl⟩
        · rintro ⟨_, _, _, ⟨⟩, ⟨⟩, h, rfl⟩
          rw [hx] at h
          cases h
          rfl

theorem scripts_alike (fmtFloat : Str → Str) {mode : Mode} {desired current current' : Str} (hr : Reordered mode current current')
    (hd : ∀ des, parseDDLs (Sql.env fmtFloat) mode desired = .ok des → UniqueTables des)
    (hc : ∀ cur, parseDDLs (Sql.env fmtFloat) mode current = .ok cur → NamesDiffer cur)
    (hc' : ∀ cur, parseDDLs (Sql.env fmtFloat) mode current' = .ok cur → WellFormedCurrent cur) {out : List Str}
    (h : generateIdempotentDDLs (Sql.env fmtFloat) mode desired current = .ok out) :
    ∃ out', generateIdempotentDDLs (Sql.env fmtFloat) mode desired current' = .ok out' ∧ SameButRemovals mode out out' := by
  obtain ⟨des, cur, stmts, h1, h2, h3, rfl⟩ := generate_ok_iff.mp h
  obtain ⟨es, cur', k1, k2, k3⟩ := reordered_understood fmtFloat hr h2
  have hl : ListedAgain cur es := ⟨cur, List.forall₂_same.mpr fun d _ => .same d, k2.symm⟩
  obtain ⟨same, rest, rest', e, m1, m2, m3⟩ :=
    diff_current_listed (hd _ h1) (hc _ h2) hl ((wellFormedCurrent_sameButText k3).mpr (hc' _ k1)) h3
  rw [diff_current mode des k3] at m1
  refine ⟨_, generate_ok_iff.mpr ⟨des, cur', _, h1, k1, m1, rfl⟩, same.map (Stmt.render mode), rest, rest', m3, m2, ?_, ?_⟩
  · rw [e, List.map_append]
  · rw [List.map_append]

/-- Two descriptions with the same statements. -/
theorem servers_alike (fmtFloat : Str → Str) {mode : Mode} {text text' : Str} {ss ss' : List Written.Statement} (hf : Consists mode text ss)
    (hf' : Consists mode text' ss') (hp : ss.Perm ss') (hcl : ∀ x ∈ ss, x.Clear)
    (hn : ∀ ds, List.Forall₂ (fun s d => Statement.DefinedAs mode s d) ss ds → Normal mode ds)
    (hn' : ∀ ds, List.Forall₂ (fun s d => Statement.DefinedAs mode s d) ss' ds → WellFormedCurrent ds)
    {desired : Str} (hd : ∀ des, parseDDLs (Sql.env fmtFloat) mode desired = .ok des → UniqueTables des) {out : List Str}
    (h : generateIdempotentDDLs (Sql.env fmtFloat) mode desired text = .ok out) :
    ∃ out', generateIdempotentDDLs (Sql.env fmtFloat) mode desired text' = .ok out' ∧ SameButRemovals mode out out' := by
  obtain ⟨ds, g1, g2, -⟩ := C67_file_is_understood fmtFloat mode text _ hf hcl
  obtain ⟨ds', k1, k2, -⟩ := C67_file_is_understood fmtFloat mode text' _ hf' fun x hx => hcl x (hp.mem_iff.mpr hx)
  refine scripts_alike fmtFloat (reordered_of_consists hf hf' hp) hd (fun c hc => ?_) (fun c hc => ?_) h
  · cases g1.symm.trans hc
    exact namesDiffer_of_normal (hn _ g2)
  · cases k1.symm.trans hc
    exact hn' _ k2

end Sqldef
