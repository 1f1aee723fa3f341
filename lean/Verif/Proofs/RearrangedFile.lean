import Verif.Spec.RearrangedFile
import Verif.Proofs.RearrangedText
/-
Files with tables, views and triggers that differ in order only.
-/
namespace Sqldef
open Spec Written

theorem layouts_rearranged (fmtFloat : Str → Str) (mode : Mode) {ts ts' : List Str} {ss ss' : List Written.Statement} {ds ds' : List DDL}
    (hs : List.Forall₂ SameStatement ss ss')
    (hf : List.Forall₂ (fun text s => Layout mode text s.tokens) ts ss)
    (hf' : List.Forall₂ (fun text s => Layout mode text s.tokens) ts' ss') (h : ∀ s ∈ ss, s.Clear)
    (hd : List.Forall₂ (fun t d => parseDDL (Sql.env fmtFloat) mode t = .ok d) ts ds)
    (hd' : List.Forall₂ (fun t d => parseDDL (Sql.env fmtFloat) mode t = .ok d) ts' ds') : List.Forall₂ SameButOrder ds ds' := by
  induction hs generalizing ts ts' ds ds' with
  | nil =>
    cases hf
    cases hf'
    cases hd
    cases hd'
    exact .nil
  | @cons s s' ss ss' hss _ ih =>
    cases hf with
    | @cons t _ ts _ ht hts =>
    cases hf' with
    | @cons t' _ ts' _ ht' hts' =>
    cases hd with
    | @cons _ d _ ds hd hds =>
    cases hd' with
    | @cons _ d' _ ds' hd' hds' =>
    refine .cons ?_ (ih hts hts' (fun s hs => h s (List.mem_cons_of_mem _ hs)) hds hds')
    have hc := h s List.mem_cons_self
    cases hss with
    | @sentence a b hab =>
      have := texts_rearranged fmtFloat mode (.cons hab .nil) (.cons (tokenize_layout ht) .nil) (.cons (tokenize_layout ht') .nil)
        (fun s hs => by cases List.mem_singleton.mp hs; exact hc) (.cons hd .nil) (.cons hd' .nil)
      cases this with
      | cons this _ => exact this
    | view v =>
      have e := C67_view_is_a_definition fmtFloat mode t v hc false (by rw [show given (false = true) [sym ';'] = [] from rfl, List.append_nil]; exact ht)
      have e' := C67_view_is_a_definition fmtFloat mode t' v hc false (by rw [show given (false = true) [sym ';'] = [] from rfl, List.append_nil]; exact ht')
      cases hd.symm.trans e
      cases hd'.symm.trans e'
      rfl
    | trigger v =>
      have e := trigger_defined fmtFloat mode t v hc false (by rw [show given (false = true) [sym ';'] = [] from rfl, List.append_nil]; exact ht)
      have e' := trigger_defined fmtFloat mode t' v hc false (by rw [show given (false = true) [sym ';'] = [] from rfl, List.append_nil]; exact ht')
      cases hd.symm.trans e
      cases hd'.symm.trans e'
      rfl

theorem file_rearranged_nothing (fmtFloat : Str → Str) {mode : Mode} (hm : mode ≠ .mysql) {file file' : Str} {ss rs ss' : List Written.Statement}
    (hs : List.Forall₂ SameStatement ss rs) (hp : rs.Perm ss') (hf : Consists mode file ss) (hf' : Consists mode file' ss')
    (h : ∀ s ∈ ss, s.Clear) {ds ds' : List DDL}
    (hd : parseDDLs (Sql.env fmtFloat) mode file = .ok ds) (hn : Normal mode ds) (hk : ∀ s t, .createTable s t ∈ ds → OneKey t)
    (hd' : parseDDLs (Sql.env fmtFloat) mode file' = .ok ds') (hw : WellFormedCurrent ds') :
    generateIdempotentDDLs (Sql.env fmtFloat) mode file file' = .ok [] := by
  have hd0 := hd
  have hd0' := hd'
  rw [C12_one_definition_per_statement] at hd hd'
  unfold Consists at hf hf'
  obtain ⟨ts, h1, h2⟩ := List.perm_comp_forall₂ hp (List.Forall₂.flip hf')
  obtain ⟨es, h3, h4⟩ := List.perm_comp_forall₂ h2 hd'
  have hr := layouts_rearranged fmtFloat mode hs hf (List.Forall₂.flip h1) h hd h3
  unfold generateIdempotentDDLs
  rw [hd0, hd0']
  change (diff mode ds ds' >>= fun l => pure (l.map (Stmt.render mode))) = _
  rw [diff_rearranged hm hn hk hr h4 hw]
  rfl

end Sqldef
