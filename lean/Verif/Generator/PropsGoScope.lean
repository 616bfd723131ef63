import Verif.Generator.GoScope
import Verif.Generator.PropsBatch

/- Property C106: the text of the tree of a method. -/
namespace Verif.Generator.Scoped
open Verif.Analysis Verif.Postgres Verif.Generator.Print GoBlk

theorem append_char (a b : Bytes) : List.append a b = a ++ b := rfl

theorem declB_text (q : Query) (c : Code) (r : GoBlk) : (declB q c r).text = declText q c ++ r.text := rfl

theorem tailB_text (c : Code) (r : GoBlk) : (tailB c r).text = tailLine c ++ r.text := by
  unfold tailB
  cases h : tailText Print.slotText c.sql.tail with
  | none => simp [tailLine, h]
  | some x => rfl

theorem assignsB_text (vs : List Bytes) (pre : Bytes) (l : List GoExpr) (r : GoBlk) :
    (assignsB vs pre l r).text = assignTexts pre 0 l ++ r.text := by
  unfold assignsB
  cases l with
  | nil => rfl
  | cons => rfl

theorem batchB_text (q : Query) (c : Code) (r : GoBlk) : (batchB q c r).text = batchText q c ++ r.text := by
  unfold batchB batchText
  simp only [declB_text]
  split
  · simp only [text, assignsB_text, tailB_text, rowB, append_char, List.append_assoc, List.nil_append]
  · simp only [text, tailB_text, rowB, append_char, List.append_assoc, List.nil_append]

theorem sliceVarsB_text : ∀ (xs : List GoExpr) (k : Nat) (r : GoBlk),
    (sliceVarsB k xs r).text = sliceVars k xs ++ r.text
  | [], _, _ => rfl
  | x :: xs, k, r => by
    simp only [sliceVarsB, sliceVars, text, sliceVarsB_text xs, append_char, List.append_assoc]

theorem sliceLoopsB_text : ∀ (xs : List GoExpr) (k : Nat) (r : GoBlk),
    (sliceLoopsB k xs r).text = sliceLoops k xs ++ r.text
  | [], _, _ => rfl
  | x :: xs, k, r => by
    simp only [sliceLoopsB, sliceLoops, text, sliceLoopsB_text xs, append_char, List.append_assoc, List.nil_append]

theorem queryStringB_text (q : Query) (c : Code) (r : GoBlk) :
    (queryStringB q c r).text = queryStringText q c ++ r.text := by
  unfold queryStringB queryStringText
  split
  · exact batchB_text q c r
  · split
    · simp only [slicesB, sliceArgsText, text, sliceVarsB_text, declB_text, assignsB_text, sliceLoopsB_text,
        append_char, List.append_assoc]
    · cases q.filter with
      | some f => simp only [filteredB, filteredText, text, declB_text, tailB_text, append_char, List.append_assoc]
      | none => exact declB_text q c r

theorem ptrsB_text (s : List Imp) (q : Query) (ps : List PtrInit) (r : GoBlk) :
    (ptrsB s q ps r).text = ps.flatMap (ptrInitText s q) ++ r.text := by
  unfold ptrsB
  cases ps <;> rfl

theorem initB_text (s : List Imp) (q : Query) (t : TargetInfo) (r : GoBlk) :
    (initB s q t r).text = initText s q t ++ r.text := by
  unfold initB initText
  simp only
  split
  · next h => simp [rootInitText, h, ptrsB_text, append_char]
  all_goals simp only [text, ptrsB_text, append_char, List.append_assoc]

theorem instrB_text (conf : PrintConf) (init : GoBlk → GoBlk) (x : Bytes) (hi : ∀ r, (init r).text = x ++ r.text)
    (q : Query) (t : TargetInfo) (c : Code) (i : Instr) (r : GoBlk) :
    (instrB conf init q t c i r).text = instrText conf x q t c i ++ r.text := by
  cases i with
  | call o => cases o <;> rfl
  | ifErr => simp only [instrB, instrText, text, retB, append_char, List.append_assoc, List.append_nil]
  | ifInit => simp only [instrB, instrText, text, retB, append_char, List.append_assoc, List.append_nil, List.nil_append]
  | init => exact hi r
  | keep =>
    simp only [instrB, instrText]
    split <;> rfl
  | _ => rfl

theorem instrsB_text (conf : PrintConf) (init : GoBlk → GoBlk) (x : Bytes) (hi : ∀ r, (init r).text = x ++ r.text)
    (q : Query) (t : TargetInfo) (c : Code) (r : GoBlk) : ∀ l : List Instr,
    (instrsB conf init q t c l r).text = l.flatMap (instrText conf x q t c) ++ r.text
  | [] => rfl
  | i :: l => by
    have := instrsB_text conf init x hi q t c r l
    simp only [instrsB, List.foldr_cons, List.flatMap_cons, List.append_assoc] at this ⊢
    rw [instrB_text conf init x hi, this]

theorem outerInitB_text (s : List Imp) (q : Query) (t : TargetInfo) (r : GoBlk) :
    (outerInitB s q t r).text = outerInit s q t ++ r.text := by
  unfold outerInitB outerInit
  split
  · split <;> rfl
  · exact initB_text s q t r

theorem goStmtsB_text (conf : PrintConf) (s : List Imp) (q : Query) (t : TargetInfo) (c : Code) :
    ∀ l : List GoStmt, (l.foldr (goStmtB conf s q t c) .nil).text = l.flatMap (goStmtText conf s q t c)
  | [] => rfl
  | .one i :: l => by
    rw [List.foldr_cons, List.flatMap_cons, ← goStmtsB_text conf s q t c l]
    exact instrB_text conf _ _ (outerInitB_text s q t) q t c i _
  | .loop b :: l => by
    rw [List.foldr_cons, List.flatMap_cons, ← goStmtsB_text conf s q t c l]
    simp only [goStmtB, goStmtText, text, instrsB_text conf _ _ (initB_text s q t), append_char, List.append_assoc,
      List.nil_append]

theorem fallbackB_text (l : Option LimitField) (r : GoBlk) : (fallbackB l r).text = fallbackText l ++ r.text := by
  cases l with
  | none => rfl
  | some l =>
    simp only [fallbackB]
    split
    · rfl
    · next h => simp [fallbackText, h]

/-- **C106** The text of the tree is that of the method. -/
theorem C106_text (conf : PrintConf) (s : List Imp) (q : Query) (t : TargetInfo) (c : Code) :
    queryText conf s q t c =
      line (b!"func (q *" ++ q.typeName ++ b!") " ++ conf.method ++ b!"(" ++
        (if conf.withContext then b!"ctx context.Context, " else []) ++ b!"c " ++
        (if conf.argPtr then b!"*" else []) ++ pkgName s conf.argPath ++ b!"." ++ conf.argType ++ b!") error {") ++
      (methodB conf s q t c).text ++ line b!"}" := by
  have h1 : ∀ r : GoBlk, (filterParamsB q c r).text = filterParamsText q c ++ r.text := by
    intro r
    unfold filterParamsB filterParamsText
    split
    · next h => simp [text, filterParamsText, h, append_char]
    · rfl
  have h2 : ∀ r : GoBlk, (queryRowB conf q c r).text = Print.rowText conf q c ++ r.text := by
    intro r
    unfold queryRowB Print.rowText
    split
    · next h => simp [text, Print.rowText, h, append_char]
    · rfl
  rw [methodB, queryStringB_text, fallbackB_text, fallbackB_text, h1, h2, resultB, goStmtsB_text]
  simp only [queryText, append_char, List.append_assoc]

end Verif.Generator.Scoped
