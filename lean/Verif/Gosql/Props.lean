import Verif.Gosql.Model
/- Property C12: IN value lists. -/
namespace Verif

theorem ordinalAtInt_ok (i : Nat) (h : i < 65535) : ordinalAtInt i = some (ordinal (i + 1)) := by
  simp [ordinalAtInt, ordinalAt, maxParams, h]

theorem ordinalAtInt_none (i : Int) (h : i < 0 ∨ 65535 ≤ i) : ordinalAtInt i = none := by
  unfold ordinalAtInt ordinalAt maxParams
  split
  · rw [if_neg]; omega
  · rfl

/-- `,$a+1,$a+2...` -/
def commaTail (l : List Bytes) : Bytes := (l.map (b!"," ++ ·)).flatten

theorem inValueLoop_eq (pos n i : Nat) (out : Bytes) (h : pos + i + n ≤ 65535) :
    inValueLoop pos n i out = some (out ++ commaTail ((List.range' (pos + i + 1) n).map ordinal)) := by
  induction n generalizing i out with
  | zero => simp [inValueLoop, commaTail]
  | succ n ih =>
    rw [inValueLoop]
    have : (pos : Int) + (i : Int) = ((pos + i : Nat) : Int) := by omega
    rw [this, ordinalAtInt_ok _ (by omega)]
    show inValueLoop pos n (i + 1) _ = _
    have e : (i : Int) + 1 = ((i + 1 : Nat) : Int) := by omega
    rw [e, ih (i + 1) _ (by omega), List.range'_succ]
    simp [commaTail, Nat.add_assoc]

theorem inValueLoop_none (pos : Int) (n : Nat) (i : Int) (out : Bytes) (hi : 0 ≤ pos + i)
    (hn : 0 < n) (h : 65535 < pos + i + n) : inValueLoop pos n i out = none := by
  induction n generalizing i out with
  | zero => omega
  | succ n ih =>
    rw [inValueLoop]
    by_cases hlt : pos + i < 65535
    · have : pos + i = (((pos + i).toNat : Nat) : Int) := by omega
      rw [this, ordinalAtInt_ok _ (by omega)]
      exact ih (i + 1) _ (by omega) (by omega) (by omega)
    · rw [ordinalAtInt_none _ (by omega)]; rfl

/-- The comma separated list of the placeholders `$pos+1 ... $pos+num`. -/
def placeholderList (num pos : Nat) : Bytes :=
  (b!",").intercalate ((List.range' (pos + 1) num).map fun k => b!"$" ++ Nat.toDigits 10 k)

theorem intercalate_comma (x : Bytes) (xs : List Bytes) :
    (b!",").intercalate (x :: xs) = x ++ commaTail xs := by
  induction xs generalizing x with
  | nil => simp [List.intercalate, commaTail]
  | cons y ys ih =>
    have := ih y
    simp only [List.intercalate, List.intersperse, List.flatten_cons, commaTail] at this ⊢
    rw [this]; simp

/-- C12: within the placeholder table InValueList is the list of num consecutive placeholders. -/
theorem C12_in_value_list (num pos : Nat) (h : num = 0 ∨ pos + num ≤ 65535) :
    inValueList num pos = some (placeholderList num pos) := by
  unfold inValueList placeholderList
  cases num with
  | zero => simp [inValueLoop, List.intercalate]
  | succ n =>
    have h1 : pos + (n + 1) ≤ 65535 := by omega
    have hpos : ((n + 1 : Nat) : Int) > 0 := by omega
    rw [if_pos hpos, ordinalAtInt_ok pos (by omega)]
    show inValueLoop pos _ 1 _ = _
    have : (((n + 1 : Nat) : Int) - 1).toNat = n := by omega
    rw [this]
    have := inValueLoop_eq pos n 1 (ordinal (pos + 1)) (by omega)
    rw [show ((1 : Nat) : Int) = 1 from rfl] at this
    rw [this, List.range'_succ, List.map_cons, intercalate_comma]
    rfl

/-- C12: a non-positive count gives the empty string, whatever the position. -/
theorem C12_in_value_list_nonpositive (num pos : Int) (h : num ≤ 0) :
    inValueList num pos = some [] := by
  unfold inValueList
  rw [if_neg (by omega)]
  have : (num - 1).toNat = 0 := by omega
  rw [this]; rfl

/-- C12: outside the table it panics. -/
theorem C12_in_value_list_panics (num pos : Int) (h : 0 < num) (h2 : pos < 0 ∨ 65535 < pos + num) :
    inValueList num pos = none := by
  unfold inValueList
  rw [if_pos (by omega)]
  by_cases hp : 0 ≤ pos ∧ pos < 65535
  · have : pos = ((pos.toNat : Nat) : Int) := by omega
    have hh := ordinalAtInt_ok pos.toNat (by omega)
    rw [← this] at hh
    rw [hh]
    exact inValueLoop_none pos _ 1 _ (by omega) (by omega) (by omega)
  · rw [ordinalAtInt_none _ (by omega)]; rfl

/-- C12: adjacent lists concatenate. -/
theorem C12_in_value_list_concat (a b pos : Nat) (ha : 0 < a) (hb : 0 < b)
    (h : pos + a + b ≤ 65535) :
    ∃ x y, inValueList a pos = some x ∧ inValueList b (pos + a : Nat) = some y ∧
      inValueList (a + b : Nat) pos = some (x ++ b!"," ++ y) := by
  refine ⟨_, _, C12_in_value_list a pos (by omega), C12_in_value_list b (pos + a) (by omega), ?_⟩
  rw [C12_in_value_list (a + b) pos (by omega)]
  unfold placeholderList
  obtain ⟨a, rfl⟩ : ∃ a', a = a' + 1 := ⟨a - 1, by omega⟩
  obtain ⟨b, rfl⟩ : ∃ b', b = b' + 1 := ⟨b - 1, by omega⟩
  have e : List.range' (pos + 1) (a + 1 + (b + 1)) =
      (pos + 1) :: (List.range' (pos + 1 + 1) a ++ (pos + (a + 1) + 1) :: List.range' (pos + (a + 1) + 1 + 1) b) := by
    rw [show a + 1 + (b + 1) = (a + (b + 1)) + 1 by omega, List.range'_succ]
    congr 1
    rw [← List.range'_append_1 (s := pos + 1 + 1) (m := a) (n := b + 1), List.range'_succ]
    have : pos + 1 + 1 + a = pos + (a + 1) + 1 := by omega
    rw [this]
  rw [e, List.range'_succ, List.range'_succ]
  simp only [List.map_cons, List.map_append, intercalate_comma, commaTail]
  simp [Function.comp_def]

example : inValueList 3 2 = some b!"$3,$4,$5" := by decide

end Verif
