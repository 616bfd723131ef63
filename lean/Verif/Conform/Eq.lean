import Verif.Analysis.Query

/-
The results of the analysis can be compared.
-/
namespace Verif.Conform
open Verif.Analysis

mutual
/-- Are two where items the same? -/
def sameItem : WItem → WItem → Bool
  | .bool a, .bool b => a == b
  | .nested n l, .nested m k => n == m && sameItems l k
  | .field a, .field b => a == b
  | .column a, .column b => a == b
  | .between a, .between b => a == b
  | _, _ => false
def sameItems : List WItem → List WItem → Bool
  | [], [] => true
  | a :: l, b :: k => sameItem a b && sameItems l k
  | _, _ => false
end

mutual
theorem sameItem_iff : ∀ a b, sameItem a b = true ↔ a = b
  | .bool a, b => by cases b <;> simp [sameItem]
  | .nested n l, b => by
    cases b <;> simp [sameItem]
    rename_i m k
    intro _
    exact sameItems_iff l k
  | .field a, b => by cases b <;> simp [sameItem]
  | .column a, b => by cases b <;> simp [sameItem]
  | .between a, b => by cases b <;> simp [sameItem]
theorem sameItems_iff : ∀ l k, sameItems l k = true ↔ l = k
  | [], k => by cases k <;> simp [sameItems]
  | a :: l, k => by
    cases k <;> simp [sameItems]
    rename_i b k
    rw [sameItem_iff a b, sameItems_iff l k]
end

instance : DecidableEq WItem := fun a b =>
  if h : sameItem a b = true then .isTrue ((sameItem_iff a b).1 h)
  else .isFalse fun e => h ((sameItem_iff a b).2 e)

deriving instance DecidableEq for WhereStruct
deriving instance DecidableEq for Query

end Verif.Conform
