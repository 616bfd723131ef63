import Verif.Pgsql.Doc

/- C85: documents. -/
namespace Verif.Pgsql
open Verif

section
variable {δ ε : Type} (c : Coder δ ε)

/-- **C85** The nil interface, and nothing else, is NULL; any other value is the text that Marshal gives, and
an error of Marshal is passed on. -/
theorem C85_value (v : Option δ) :
    (docValue c v = .ok none ↔ v = none) ∧
    (∀ x, v = some x → ∀ b, docValue c v = .ok (some b) ↔ c.marshal x = .ok b) ∧
    (∀ x, v = some x → ∀ e, docValue c v = .err e ↔ c.marshal x = .err e) := by
  cases v with
  | none => simp [docValue]
  | some x =>
    refine ⟨?_, ?_, ?_⟩ <;> cases hm : c.marshal x <;> simp [docValue, Res.map, hm]

/-- **C85** What was written is read again, if Unmarshal undoes Marshal and the driver hands over the bytes. -/
theorem C85_round (x dest : δ) (b : Bytes) (h : docValue c (some x) = .ok (some b))
    (inverse : ∀ b, c.marshal x = .ok b → c.unmarshal b dest = .ok x) :
    docScan c (.bytes b) dest = .ok x := by
  exact inverse b (((C85_value c (some x)).2.1 x rfl b).1 h)

/-- **C85** The server may write the document in another way (jsonb), if that reads the same. -/
theorem C85_round_text (x dest : δ) (b b' : Bytes) (h : docValue c (some x) = .ok (some b))
    (inverse : ∀ b, c.marshal x = .ok b → c.unmarshal b dest = .ok x)
    (same : c.unmarshal b' dest = c.unmarshal b dest) : docScan c (.bytes b') dest = .ok x := by
  rw [← C85_round c x dest b h inverse]
  exact same

/-- **C85** A source other than bytes, a string or NULL for instance, is ignored: there is no error and the
destination is as before. -/
theorem C85_ignored (src : Src) (h : ∀ b, src ≠ .bytes b) (dest : δ) : docScan c src dest = .ok dest := by
  cases src with
  | bytes b => exact absurd rfl (h b)
  | _ => rfl

end

/-- **C85** A pointer that is nil is not NULL but the JSON null, which is read as nil. -/
theorem C85_not_null : docValue boolPtrJSON (some none) = .ok (some b!"null") ∧
    ∀ dest, docScan boolPtrJSON (.bytes b!"null") dest = .ok none := by
  constructor
  · rfl
  · intro dest; rfl

/-- **C85** A document that arrives as a string is not read: the destination keeps what it had, without an
error. -/
theorem C85_not_string : docScan boolPtrJSON (.bytes b!"true") (some false) = .ok (some true) ∧
    docScan boolPtrJSON (.str b!"true") (some false) = .ok (some false) ∧
    docScan boolPtrJSON .null (some false) = .ok (some false) := by decide

/-- **C85** A pointer that is nil is the empty text in a column of type xml, and this text cannot be read. -/
theorem C85_not_xml : docValue structPtrXML (some none) = .ok (some []) ∧
    ∀ dest, docScan structPtrXML (.bytes []) dest = .err () := by
  constructor
  · rfl
  · intro dest; rfl

/-- **C85** A destination of type `interface{}` gets what the driver hands over. -/
theorem C85_any (src dest : Src) : anyScan src dest = .ok src := rfl

/-- **C85** The two values of type bit. -/
theorem C85_bit : bitFromBool true = b!"1" ∧ bitFromBool false = b!"0" := ⟨rfl, rfl⟩

example : docValue boolPtrJSON (some (some true)) = .ok (some b!"true") ∧
    docScan boolPtrJSON (.bytes b!"true") none = .ok (some true) := by decide

end Verif.Pgsql
