import Verif.Generator.TreeFilterDb
import Verif.Generator.PropsTreeDb2
import Verif.Generator.PropsFMeaning2

/- Property C96: what statements with a filter do to the tables. Conditions and order. -/
namespace Verif.Generator.Gram
open Verif.Analysis Verif.Postgres Verif.Generator.Lex

section
variable {α V : Type} [DecidableEq V] {S : TServer V} {sent : Filter.Param α → Option V} {ps : List (Option V)} {j : Joined V}

theorem param_value (n : Nat) : treeVal (S.row j) ps (paramEx (n + 1)) = atomVal (S.frow sent j) ps (paramEx (n + 1)) := by
  have h : Nat.ofDigitChars 10 (itoa (n + 1)) 0 = n + 1 := Nat.ofDigitChars_toDigits (by decide) (by decide)
  simp only [paramEx, treeVal, constVal, numbered, atomVal, h, Nat.add_sub_cancel]

theorem list_value (n : Nat) : ∀ k, ((List.range' (n + 1) k).map paramEx).mapM (treeVal (S.row j) ps) =
    ((List.range' (n + 1) k).map paramEx).mapM (exVal (S.frow sent j) ps)
  | 0 => rfl
  | k + 1 => by
    rw [List.range'_succ, List.map_cons, List.mapM_cons, List.mapM_cons, list_value (n + 1) k, param_value (sent := sent)]
    rfl

omit [DecidableEq V] in
theorem isWords_null (v : Option V) : S.isWords [.word b!"is", .word b!"null"] v = some v.isNone := by
  unfold TServer.isWords
  rw [if_pos (by decide)]

omit [DecidableEq V] in
theorem isWords_notNull (v : Option V) :
    S.isWords [.word b!"is", .word b!"not", .word b!"null"] v = not3 (some v.isNone) := by
  unfold TServer.isWords
  rw [if_neg (by decide), if_pos (by decide)]
  cases v <;> rfl

omit [DecidableEq V] in
theorem isWords_true (v : Option V) :
    S.isWords [.word b!"is", .word b!"true"] v = some (decide (S.truth v = some true)) := by
  unfold TServer.isWords
  rw [if_neg (by decide), if_neg (by decide), if_pos (by decide)]

omit [DecidableEq V] in
theorem isWords_notTrue (v : Option V) :
    S.isWords [.word b!"is", .word b!"not", .word b!"true"] v = not3 (some (decide (S.truth v = some true))) := by
  unfold TServer.isWords
  rw [if_neg (by decide), if_neg (by decide), if_neg (by decide), if_pos (by decide)]
  by_cases h : S.truth v = some true <;> simp [h, not3]

omit [DecidableEq V] in
theorem isWords_false (v : Option V) :
    S.isWords [.word b!"is", .word b!"false"] v = some (decide (S.truth v = some false)) := by
  unfold TServer.isWords
  rw [if_neg (by decide), if_neg (by decide), if_neg (by decide), if_neg (by decide), if_pos (by decide)]

omit [DecidableEq V] in
theorem isWords_notFalse (v : Option V) :
    S.isWords [.word b!"is", .word b!"not", .word b!"false"] v = not3 (some (decide (S.truth v = some false))) := by
  unfold TServer.isWords
  rw [if_neg (by decide), if_neg (by decide), if_neg (by decide), if_neg (by decide), if_neg (by decide),
    if_pos (by decide)]
  by_cases h : S.truth v = some false <;> simp [h, not3]

/-- A predicate has for the tree the value that it has for the filter. -/
theorem pred_tree {p : Nat} {x : Filter.Pred α} {t : Ex} (h : predTree p x = some t) :
    exHolds (S.frow sent j) ps t = treeHolds (S.row j) ps t := by
  simp only [predTree, Option.bind_eq_some_iff] at h
  obtain ⟨c, hc, h⟩ := h
  obtain ⟨pth, rfl⟩ : ∃ l, c = .col l := by
    unfold colOf at hc
    split at hc
    · split at hc
      · exact ⟨_, (Option.some.inj hc).symm⟩
      · cases hc
    · cases hc
  have hv := param_value (S := S) (sent := sent) (ps := ps) (j := j) p
  cases hx : x.form with
  | cmp op v =>
    rw [hx] at h
    simp only [Option.map_eq_some_iff] at h
    obtain ⟨g, hg, rfl⟩ := h
    unfold opOf at hg
    split at hg
    · split at hg
      · cases hg
      · cases hg
        simp only [exHolds, leafHolds, binHolds, treeHolds, opVal, hv]
        rfl
    · simp only [Option.map_eq_some_iff] at hg
      obtain ⟨y, hy, rfl⟩ := hg
      have hy := List.mem_of_find?_eq_some hy
      simp only [wordOps, List.mem_cons, List.not_mem_nil, or_false] at hy
      rcases hy with rfl | rfl | rfl | rfl | rfl | rfl | rfl | rfl <;>
        (simp only [exHolds, leafHolds, binHolds, treeHolds, opVal, hv]; rfl)
  | «is» w =>
    rw [hx] at h
    simp only [Option.map_eq_some_iff] at h
    obtain ⟨g, hg, rfl⟩ := h
    unfold isOf at hg
    simp only [Option.map_eq_some_iff] at hg
    obtain ⟨y, hy, rfl⟩ := hg
    have hy := List.mem_of_find?_eq_some hy
    simp only [isWords, List.mem_cons, List.not_mem_nil, or_false] at hy
    rcases hy with rfl | rfl | rfl | rfl | rfl | rfl
    · exact congrArg some (isWords_null (S := S) _)
    · exact congrArg some (isWords_notNull (S := S) _)
    · exact congrArg some (isWords_true (S := S) _)
    · exact congrArg some (isWords_notTrue (S := S) _)
    · exact congrArg some (isWords_false (S := S) _)
    · exact congrArg some (isWords_notFalse (S := S) _)
  | isIn xs =>
    rw [hx] at h
    simp only at h
    split at h
    · cases h
    · cases h
      simp only [exHolds, leafHolds, treeHolds, list_value (sent := sent)]
      rfl
  | anyOf k xs =>
    rw [hx] at h
    cases h
    have e1 : exHolds (S.frow sent j) ps (.quant [.op b!"="] b!"any" (.col pth)
        (.cast (paramEx (p + 1)) (lex (Filter.arrayTypeName k)))) =
        ((atomVal (S.frow sent j) ps (paramEx (p + 1))).map fun v => v).map
          fun y => any3 (S.op [.op b!"="] (S.server.col j (colNamed pth))) (S.elems y) := rfl
    have e2 : treeHolds (S.row j) ps (.quant [.op b!"="] b!"any" (.col pth)
        (.cast (paramEx (p + 1)) (lex (Filter.arrayTypeName k)))) =
        ((treeVal (S.row j) ps (paramEx (p + 1))).map fun v => v).bind
          fun y => some (any3 (S.op [.op b!"="] (S.server.col j (colNamed pth))) (S.elems y)) := rfl
    rw [e1, e2, hv]
    cases atomVal (S.frow sent j) ps (paramEx (p + 1)) <;> rfl
  | search s =>
    rw [hx] at h
    cases h
    have e1 : exHolds (S.frow sent j) ps (.op b!"@@" (.col pth)
        (.call b!"to_tsquery" [.const (.str b!"simple"), paramEx (p + 1)])) =
        ((atomVal (S.frow sent j) ps (paramEx (p + 1))).map fun v =>
          S.fn2 b!"to_tsquery" (S.const (.str b!"simple")) v).map (S.op [.op b!"@@"] (S.server.col j (colNamed pth))) := rfl
    have e2 : treeHolds (S.row j) ps (.op b!"@@" (.col pth)
        (.call b!"to_tsquery" [.const (.str b!"simple"), paramEx (p + 1)])) =
        ((treeVal (S.row j) ps (paramEx (p + 1))).bind fun v =>
          some (S.fn2 b!"to_tsquery" (S.const (.str b!"simple")) v)).map (S.op [.op b!"@@"] (S.server.col j (colNamed pth))) := rfl
    rw [e1, e2, hv]
    cases atomVal (S.frow sent j) ps (paramEx (p + 1)) <;> rfl

theorem meant_tree {l : Level} {p q : Nat} {e : List (Filter.Seg α)} {t : Ex} (h : Meant l p e q t) :
    exHolds (S.frow sent j) ps t = treeHolds (S.row j) ps t := by
  induction h with
  | pred h => exact pred_tree h
  | paren _ ih => exact ih
  | fact _ ih => exact ih
  | conj _ ih => exact ih
  | and _ _ iha ihb => simp only [exHolds, treeHolds, iha, ihb]
  | or _ _ iha ihb => simp only [exHolds, treeHolds, iha, ihb]

/-! ### Conditions, order and limits of a filter -/

/-- The condition of the tree holds for the rows that the calls ask for. -/
theorem wher_asks {cm : List (Bytes × Filter.Column α)} {tscol : Bytes} {calls : List (Filter.Call α)} {n : Nat}
    {own : List (Option V)} {fs : List (Filter.Param α)} {x : Option Ex} {sql : Bytes}
    (hp : Filter.Proper tscol calls) (hfql : ∀ r ∈ Filter.fqlRuns calls false, ∃ s, Filter.TokExpr cm r.2 s)
    (hpred : ∀ x ∈ Filter.requested cm tscol calls false, PredGram x) (hsql : Filter.filterSQL cm tscol calls n = some (sql, fs))
    (hx : MeantWhere n (Filter.joined (Filter.asked cm tscol calls none)) x) (hn : own.length = n) :
    S.holds (own ++ fs.map sent) x = S.asks sent cm tscol calls := by
  funext j
  have hpe : ∀ x ∈ Filter.preds (Filter.joined (Filter.asked cm tscol calls none)), PredGram x := by
    rw [(Filter.C91_grammatical cm tscol calls hp hfql).1]
    exact hpred
  have hsent := sent_holes (R := S.frow sent j) hp hfql hsql
  unfold TServer.asks TServer.Asks
  generalize he : Filter.joined (Filter.asked cm tscol calls none) = e at hx hpe hsent ⊢
  cases hx with
  | none => simp [TServer.holds]
  | some hm =>
    obtain ⟨v, h3, h4⟩ := C93_tree (R := S.frow sent j) hm
    have h5 := h4 own [] hn
    rw [List.append_nil, ← hsent, meant_tree hm] at h5
    have h5 : treeHolds (S.row j) (own ++ fs.map sent) _ = some v := h5
    simp only [TServer.holds, h5, Option.some.injEq]
    refine decide_eq_decide.2 ⟨fun hv => .inr (hv ▸ h3), fun h => ?_⟩
    rcases h with h | h
    · exact absurd h (says_ne h3)
    · exact C93_unique hpe h3 h

theorem order_asked {l : List Filter.OrderItem} (h : ∀ i ∈ l, ColText i.column) (a b : Joined V) :
    S.notAfter ps (l.map itemTree) a b = S.filterOrder l a b := by
  induction l with
  | nil => rfl
  | cons i l ih =>
    rw [List.map_cons, TServer.notAfter, TServer.filterOrder, ih fun x hx => h x (by simp [hx])]
    have hi := (h i (by simp)).2
    obtain ⟨c, hc⟩ := Option.isSome_iff_exists.1 hi
    obtain ⟨p, rfl⟩ : ∃ p, c = .col p := by
      unfold colOf at hc
      split at hc
      · split at hc
        · exact ⟨_, (Option.some.inj hc).symm⟩
        · cases hc
      · cases hc
    have key : ∀ j : Joined V, S.value ps j (itemTree i).by_ = S.server.col j (colNamed (colNames (lex i.column))) := by
      intro j
      simp only [itemTree, colNames, hc]
      rfl
    simp only [key]
    rfl

theorem count_rows (hn : ∀ n, (S.const (.num (itoa n))).map S.nat = some n) (n : Option Int64) :
    S.rows ps (countEx n) = n.map fun n => n.toInt.toNat := by
  cases n with
  | none => rfl
  | some n => exact hn _

omit [DecidableEq V] in
/-- Without FQL, what the calls ask for is what they say one after the other. -/
theorem asks_calls {cm : List (Bytes × Filter.Column α)} {tscol : Bytes} {calls : List (Filter.Call α)}
    (hp : Filter.Proper tscol calls) (hfql : ∀ r ∈ Filter.fqlRuns calls false, ∃ s, Filter.TokExpr cm r.2 s)
    (hq : callsNoFql calls = true) (hpred : ∀ x ∈ Filter.requested cm tscol calls false, PredGram x) (j : Joined V) :
    S.asks sent cm tscol calls j = decide (seqVal (callVals (S.frow sent j) tscol calls none) = some true) := by
  have hpe : ∀ x ∈ Filter.preds (Filter.joined (Filter.asked cm tscol calls none)), PredGram x := by
    rw [(Filter.C91_grammatical cm tscol calls hp hfql).1]
    exact hpred
  have hparts := calls_parts (R := S.frow sent j) cm tscol calls none hq hp
  unfold TServer.asks TServer.Asks
  by_cases h0 : Filter.asked cm tscol calls none = []
  · rw [h0] at hparts ⊢
    cases hv : callVals (S.frow sent j) tscol calls none with
    | nil => simp [Filter.joined, seqVal]
    | cons x l => rw [hv] at hparts; exact hparts.elim
  · have h1 := C93_calls (R := S.frow sent j) cm tscol calls hq hp h0
    refine decide_eq_decide.2 ⟨fun h => ?_, fun h => .inr (h ▸ h1)⟩
    rcases h with h | h
    · exact absurd h (says_ne h1)
    · exact C93_unique hpe h1 h

end

end Verif.Generator.Gram
