import Verif.Proofs.Same
import Verif.Spec.Supported
/-! Decision procedures for the specification. -/
namespace Sqldef
open Spec

instance (a b : Index) : Decidable (SameIndex a b) := decidable_of_iff _ (same_index_iff a b)
instance (a b : Option Index) : Decidable (SameKey a b) := decidable_of_iff _ (same_key_iff a b)
instance (mode : Mode) (a b : ForeignKey) : Decidable (SameForeignKey mode a b) := decidable_of_iff _ (same_foreign_key_iff mode a b)

instance (x D : Table) : Decidable (MssqlChange x D) :=
  decidable_of_iff
    ((∀ c ∈ D.columns, ∀ e ∈ x.columns, e.name = c.name → e.identity = c.identity) ∧
      (SameKey x.primaryKey D.primaryKey ∨ x.primaryKey = none) ∧
      ∀ i ∈ x.indexes, i.primary = true → i.name ∈ D.indexes.map (·.name) ∨ ∃ c ∈ D.columns, c.keyOption = .primary)
    ⟨fun ⟨a, b, c⟩ => ⟨a, b, c⟩, fun h => ⟨h.1, h.2, h.3⟩⟩

instance (x d D : Table) : Decidable (SqliteChange x d D) :=
  decidable_of_iff
    (SameKey x.primaryKey D.primaryKey ∧
      (∀ i ∈ d.indexes, i.primary = false → i.name ∈ secondaryNames x) ∧
      (∀ i ∈ D.indexes, ∀ j ∈ x.indexes, j.name = i.name → SameIndex j i) ∧
      (∀ f ∈ d.foreignKeys, ∃ g ∈ x.foreignKeys, g.constraintName = f.constraintName ∧ SameForeignKey .sqlite3 g f) ∧
      (∀ i ∈ x.indexes, i.primary = false → i.name ∈ D.indexes.map (·.name)) ∧
      (∀ f ∈ x.foreignKeys, f.constraintName ∈ D.foreignKeys.map (·.constraintName)) ∧
      x.policies = [] ∧ D.policies = [])
    ⟨fun ⟨a, b, c, d, e, f, g⟩ => ⟨a, b, c, d, e, f, g⟩, fun h => ⟨h.1, h.2, h.3, h.4, h.5, h.6, h.7⟩⟩

instance (mode : Mode) (x d D : Table) : Decidable (SupportedChange mode x d D) :=
  decidable_of_iff
    ((∀ i ∈ D.indexes, ∀ j ∈ x.indexes, i.primary ≠ j.primary → i.name ≠ j.name) ∧
      (mode = .mysql → ∀ c ∈ D.columns, c.keyOption.isUnique = true → c.name ∉ secondaryNames D) ∧
      (mode = .mssql → MssqlChange x D) ∧ (mode = .sqlite3 → SqliteChange x d D))
    ⟨fun ⟨a, b, c, d⟩ => ⟨a, b, c, d⟩, fun h => ⟨h.1, h.2, h.3, h.4⟩⟩

instance (mode : Mode) (desired current : List DDL) : Decidable (Supported mode desired current) :=
  decidable_of_iff
    ((∀ t ∈ created desired, Tidy (complete desired t) ∧ t.policies = []) ∧ (∀ x ∈ tablesOf current, Tidy x) ∧
      (∀ t ∈ created desired, ∀ i ∈ indexesFor t.name desired, i.primary = false) ∧
      (∀ t ∈ created desired, ∀ x ∈ tablesOf current, x.name = t.name → SupportedChange mode x t (complete desired t)) ∧
      ((viewsOf current).map (·.name)).Nodup ∧ ((triggersOf desired).map (·.name)).Nodup ∧
      (mode = .sqlite3 → (∀ d ∈ desired, isAddIndex d = false) ∧ ∀ t ∈ created desired, policiesFor t.name desired = []))
    ⟨fun ⟨a, b, c, d, e, f, g⟩ => ⟨a, b, c, d, e, f, g⟩, fun h => ⟨h.1, h.2, h.3, h.4, h.5, h.6, h.7⟩⟩

end Sqldef
