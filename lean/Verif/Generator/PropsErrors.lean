import Verif.Generator.Errors
import Verif.Generator.Pipeline

/- C68: errors.  What a generated method calls, what it returns, and what it does with rows and counts. -/
namespace Verif.Generator
open Verif.Analysis Verif.Postgres

variable {E : Type}

/-! ### What is asked for -/

/-- The calls for one row. -/
def rowSteps (q : Query) (t : TargetInfo) (i : Nat) : List (Op × Nat) :=
  (.rowsScan, i) :: if keepOf q t = .iterate then [(.visit, i)] else []

/-- The calls of a run in which nothing fails. -/
def steps (q : Query) (t : TargetInfo) (rows : Nat) : List (Op × Nat) :=
  match callOf q with
  | .exec => (.exec, 0) :: if q.rowsAffected.isSome then [(.rowsAffected, 0)] else []
  | .row => [(.rowScan, 0)]
  | .rows => (.query, 0) :: (List.range' 0 rows).flatMap (rowSteps q t) ++ [(.rowsErr, 0)]

def Db.firstError (D : Db E) (l : List (Op × Nat)) : Option E := l.findSome? fun p => D.fails p.1 p.2

/-- The calls up to the first that fails, which is included. -/
def Db.performed (D : Db E) : List (Op × Nat) → List (Op × Nat)
  | [] => []
  | p :: ps => p :: if (D.fails p.1 p.2).isSome then [] else performed D ps

/-- What the caller is given for an error. -/
def Db.answer (D : Db E) (q : Query) (e : Option E) : Option E :=
  match q.errorHandler with
  | none => e
  | some (_, false) => D.handle e
  | some (_, true) => D.handleInfo e

/-- The handler is also given the nil error of a run in which nothing failed. -/
def toldOfSuccess (q : Query) (t : TargetInfo) : Bool :=
  match q.errorHandler with
  | none => false
  | some (_, info) =>
    match callOf q with
    | .exec => q.rowsAffected.isNone
    | .row => !info && !afterScans q t
    | .rows => !info

/-- The rows (of a loop, or the only one: 0) whose scan succeeds, among the calls. -/
def Db.scanned (D : Db E) (l : List (Op × Nat)) : List Nat :=
  l.filterMap fun p =>
    if (p.1 = .rowsScan ∨ p.1 = .rowScan) ∧ (D.fails p.1 p.2).isNone = true then some p.2 else none

def Event.call? : Event E → Option (Op × Nat)
  | .called o i => some (o, i)
  | _ => none

def Event.told? : Event E → Option (Option E)
  | .handled e | .handledInfo e => some e
  | _ => none

def Event.after? : Event E → Option Nat
  | .afterScan i => some i
  | _ => none

def Event.kept? : Event E → Option Nat
  | .kept i => some i
  | _ => none

def Event.affected? : Event E → Option Int
  | .affected n => some n
  | _ => none

/-! ### Runs -/

section
variable (D : Db E) (q : Query) (t : TargetInfo)

/-- What is observed of handling an error. -/
def told (e : Option E) : List (Event E) :=
  match q.errorHandler with
  | none => []
  | some (_, false) => [.handled e]
  | some (_, true) => [.handledInfo e]

def closing (s : RunSt E) : List (Event E) := if s.deferred then [.closed] else []

theorem runRet_err (i : Nat) (s : RunSt E) :
    runRet D i s (errReturn q) =
      ({ s with trace := s.trace ++ told q s.err ++ closing s }, D.answer q s.err) := by
  unfold runRet errReturn told Db.answer closing
  rcases s with ⟨err, tr, d⟩
  rcases q.errorHandler with _ | ⟨f, _ | _⟩ <;> cases d <;> simp [evalErr, RunSt.emit]

theorem runInstr_ifErr (i : Nat) (s : RunSt E) :
    runInstr D i s (.ifErr (errReturn q)) =
      match s.err with
      | none => (s, none)
      | some e => ({ s with trace := s.trace ++ told q (some e) ++ closing s }, some (D.answer q (some e))) := by
  rcases s with ⟨_ | e, tr, d⟩
  · rfl
  · simp only [runInstr, Option.isSome_some, if_true, runRet_err]

/-- What is observed of one row. -/
def rowEvents (i : Nat) : List (Event E) :=
  .called .rowsScan i ::
    match D.fails .rowsScan i with
    | some _ => []
    | none => (if afterScans q t then [.afterScan i] else []) ++
        (if keepOf q t = .iterate then [.called .visit i] else [.kept i])

def rowFail (i : Nat) : Option E :=
  match D.fails .rowsScan i with
  | some e => some e
  | none => if keepOf q t = .iterate then D.fails .visit i else none

theorem run_body (i : Nat) (s : RunSt E) :
    runInstrs D i s (loopBody q t) =
      match rowFail D q t i with
      | none => ({ s with err := none, trace := s.trace ++ rowEvents D q t i }, none)
      | some e => ({ s with err := some e, trace := s.trace ++ rowEvents D q t i ++ told q (some e) ++ closing s },
          some (D.answer q (some e))) := by
  rcases s with ⟨err, tr, d⟩
  unfold rowFail rowEvents
  cases hs : D.fails .rowsScan i with
  | some e => simp [loopBody, runInstrs, runInstr, RunSt.emit, hs, runRet_err, closing]
  | none =>
    by_cases ha : afterScans q t = true <;> by_cases hk : keepOf q t = .iterate <;>
      cases hv : D.fails .visit i <;>
      simp [loopBody, runInstrs, runInstr, RunSt.emit, hs, ha, hk, hv, evalErr, runRet_err, closing]

def loopEvents (i : Nat) : Nat → List (Event E)
  | 0 => []
  | n + 1 => rowEvents D q t i ++ if (rowFail D q t i).isSome then [] else loopEvents (i + 1) n

def loopFail (i : Nat) : Nat → Option E
  | 0 => none
  | n + 1 =>
    match rowFail D q t i with
    | some e => some e
    | none => loopFail (i + 1) n

theorem run_loop (n : Nat) : ∀ (i : Nat) (s : RunSt E), s.err = none →
    runLoop D (loopBody q t) i s n =
      match loopFail D q t i n with
      | none => ({ s with trace := s.trace ++ loopEvents D q t i n }, none)
      | some e => ({ s with err := some e, trace := s.trace ++ loopEvents D q t i n ++ told q (some e) ++ closing s },
          some (D.answer q (some e))) := by
  induction n with
  | zero => intro i s _; simp [runLoop, loopFail, loopEvents]
  | succ n ih =>
    intro i s hs
    rw [runLoop, run_body]
    cases hf : rowFail D q t i with
    | some e => simp [loopFail, loopEvents, hf]
    | none =>
      simp only
      rw [ih _ { s with err := s.err, trace := s.trace ++ rowEvents D q t i } hs]
      simp only [loopFail, hf, loopEvents, Option.isSome_none, Bool.false_eq_true, if_false]
      cases loopFail D q t (i + 1) n with
      | none => rcases s with ⟨err, tr, d⟩; simp_all
      | some e => simp [closing]

/-- What is observed at the end of a run in which nothing failed. -/
def success : List (Event E) := if toldOfSuccess q t then told q none else []
def successAnswer : Option E := if toldOfSuccess q t then D.answer q none else none

/-- A call whose error is returned. -/
def lastCall (o : Op) : List (Event E) :=
  .called o 0 ::
    match D.fails o 0 with
    | some e => told q (some e)
    | none => success q t
def lastAnswer (o : Op) : Option E :=
  match D.fails o 0 with
  | some e => D.answer q (some e)
  | none => successAnswer D q t

theorem runMethod_exec (hc : callOf q = .exec) (hr : q.rowsAffected = none) :
    runMethod D q t = (lastCall D q t .exec, some (lastAnswer D q t .exec)) := by
  unfold runMethod resultStmts execStmts
  simp only [hc, hr, runStmts, runInstr, RunSt.emit]
  unfold lastCall lastAnswer success successAnswer toldOfSuccess told Db.answer errorReturn
  rcases q.errorHandler with _ | ⟨f, _ | _⟩ <;> cases hf : D.fails .exec 0 <;>
    simp [runStmts, runInstr, runRet, evalErr, RunSt.emit, hc, hr]

theorem runMethod_affected (hc : callOf q = .exec) (f : Bytes) (k : Kind) (hr : q.rowsAffected = some (f, k)) :
    runMethod D q t =
      match D.fails .exec 0 with
      | some e => (.called .exec 0 :: told q (some e), some (D.answer q (some e)))
      | none =>
        match D.fails .rowsAffected 0 with
        | some e => (.called .exec 0 :: .called .rowsAffected 0 :: told q (some e), some (D.answer q (some e)))
        | none => ([.called .exec 0, .called .rowsAffected 0,
            .affected (assigned (if k = Kind.int64 then none else some k) D.affected)], some none) := by
  unfold runMethod resultStmts execStmts
  simp only [hc, hr, runStmts, List.map_cons, List.map_nil, runInstr, RunSt.emit]
  cases h1 : D.fails .exec 0 with
  | some e => simp [runRet_err, closing]
  | none =>
    simp only [Option.isSome_none, Bool.false_eq_true, if_false]
    cases h2 : D.fails .rowsAffected 0 with
    | some e => simp [runRet_err, closing]
    | none => simp [runRet, evalErr]

theorem runMethod_row (hc : callOf q = .row) :
    runMethod D q t = (.called .rowScan 0 ::
      (match D.fails .rowScan 0 with
       | some e => told q (some e)
       | none => (if afterScans q t then [.afterScan 0] else []) ++ success q t),
      some (lastAnswer D q t .rowScan)) := by
  unfold runMethod resultStmts rowStmts
  simp only [hc, runStmts, runInstr, List.map_cons]
  by_cases ha : afterScans q t = true
  · simp only [ha, Bool.not_true, Bool.false_and, Bool.false_eq_true, if_false, if_true, List.cons_append, List.nil_append,
      List.map_cons, List.map_nil, runStmts, runInstr, RunSt.emit]
    unfold lastAnswer success successAnswer toldOfSuccess
    cases hf : D.fails .rowScan 0 with
    | some e => simp [runRet_err, closing]
    | none =>
      simp only [runRet, evalErr]
      rcases q.errorHandler with _ | ⟨f, _ | _⟩ <;> simp [hc, ha]
  · rcases hh : q.errorHandler with _ | ⟨f, _ | _⟩
    · simp only [ha, hasNoErrorInfoHandler, hh, errorReturn]
      unfold lastAnswer success successAnswer toldOfSuccess
      cases hf : D.fails .rowScan 0 <;>
        simp [hh, runStmts, runInstr, runRet, evalErr, RunSt.emit, told, Db.answer, hf]
    · simp only [ha, hasNoErrorInfoHandler, hh, errorReturn]
      unfold lastAnswer success successAnswer toldOfSuccess
      cases hf : D.fails .rowScan 0 <;>
        simp [hh, hc, ha, runStmts, runInstr, runRet, evalErr, RunSt.emit, told, Db.answer, hf]
    · simp only [ha, hasNoErrorInfoHandler, hh]
      unfold lastAnswer success successAnswer toldOfSuccess
      cases hf : D.fails .rowScan 0 <;>
        simp [hh, hc, ha, runStmts, runInstr, runRet, evalErr, RunSt.emit, told, Db.answer, hf, errReturn]

theorem runMethod_rows (hc : callOf q = .rows) :
    runMethod D q t =
      match D.fails .query 0 with
      | some e => (.called .query 0 :: told q (some e), some (D.answer q (some e)))
      | none =>
        match loopFail D q t 0 D.rows with
        | some e => (.called .query 0 :: loopEvents D q t 0 D.rows ++ told q (some e) ++ [.closed],
            some (D.answer q (some e)))
        | none => (.called .query 0 :: loopEvents D q t 0 D.rows ++ lastCall D q t .rowsErr ++ [.closed],
            some (lastAnswer D q t .rowsErr)) := by
  unfold runMethod resultStmts rowsStmts
  simp only [hc, List.cons_append, List.nil_append, runStmts, runInstr, RunSt.emit]
  cases h1 : D.fails .query 0 with
  | some e => simp [runRet_err, closing]
  | none =>
    simp only [Option.isSome_none, Bool.false_eq_true, if_false]
    rw [run_loop D q t D.rows 0 _ rfl]
    cases h2 : loopFail D q t 0 D.rows with
    | some e => simp [closing]
    | none =>
      simp only
      unfold lastCall lastAnswer success successAnswer toldOfSuccess told Db.answer errorReturn
      rcases q.errorHandler with _ | ⟨f, _ | _⟩ <;> cases hf : D.fails .rowsErr 0 <;>
        simp [runStmts, runInstr, runRet, evalErr, RunSt.emit, hc, hf]
end

/-! ### The loop -/

section
variable (D : Db E) (q : Query) (t : TargetInfo)

@[simp] theorem Db.firstError_cons (p : Op × Nat) (ps : List (Op × Nat)) :
    D.firstError (p :: ps) = (D.fails p.1 p.2).or (D.firstError ps) := by
  simp only [Db.firstError, List.findSome?_cons]
  cases D.fails p.1 p.2 <;> rfl

@[simp] theorem Db.firstError_nil : D.firstError [] = none := rfl

theorem Db.firstError_append (l m : List (Op × Nat)) :
    D.firstError (l ++ m) = (D.firstError l).or (D.firstError m) := by
  simp [Db.firstError, List.findSome?_append]

theorem Db.performed_append (l m : List (Op × Nat)) :
    D.performed (l ++ m) = D.performed l ++ if (D.firstError l).isSome then [] else D.performed m := by
  induction l with
  | nil => simp [Db.performed, Db.firstError]
  | cons p ps ih =>
    simp only [List.cons_append, Db.performed, Db.firstError_cons]
    cases h : D.fails p.1 p.2 with
    | some e => simp
    | none =>
      simp only [Option.isSome_none, Bool.false_eq_true, if_false, ih, Option.none_or]
      cases D.firstError ps <;> rfl

theorem rowFail_eq (i : Nat) : rowFail D q t i = D.firstError (rowSteps q t i) := by
  unfold rowFail rowSteps
  rw [Db.firstError_cons]
  by_cases hk : keepOf q t = .iterate <;> cases hs : D.fails .rowsScan i <;>
    simp [hk, Db.firstError_cons, Db.firstError_nil]

theorem loopFail_eq (n : Nat) : ∀ i, loopFail D q t i n = D.firstError ((List.range' i n).flatMap (rowSteps q t)) := by
  induction n with
  | zero => intro i; rfl
  | succ n ih =>
    intro i
    rw [List.range'_succ, List.flatMap_cons, Db.firstError_append, loopFail, rowFail_eq, ih]
    cases D.firstError (rowSteps q t i) <;> rfl

theorem row_calls (i : Nat) : (rowEvents D q t i).filterMap Event.call? = D.performed (rowSteps q t i) := by
  unfold rowEvents rowSteps
  cases hs : D.fails .rowsScan i with
  | some e => simp [Db.performed, hs, Event.call?, List.filterMap_cons]
  | none =>
    by_cases hk : keepOf q t = .iterate <;> by_cases ha : afterScans q t = true <;>
      simp [Db.performed, hs, Event.call?, List.filterMap_cons, hk, ha]

theorem loop_calls (n : Nat) : ∀ i, (loopEvents D q t i n).filterMap Event.call? =
    D.performed ((List.range' i n).flatMap (rowSteps q t)) := by
  induction n with
  | zero => intro i; rfl
  | succ n ih =>
    intro i
    rw [List.range'_succ, List.flatMap_cons, Db.performed_append, loopEvents, List.filterMap_append, row_calls,
      rowFail_eq]
    split
    · rfl
    · rw [ih]

/-- A projection of the events that is not a call. -/
theorem loop_other {β : Type} (f : Event E → Option β) (g : Nat → List β)
    (h : ∀ i, (rowEvents D q t i).filterMap f = (D.scanned (D.performed (rowSteps q t i))).flatMap g) (n : Nat) :
    ∀ i, (loopEvents D q t i n).filterMap f =
      (D.scanned (D.performed ((List.range' i n).flatMap (rowSteps q t)))).flatMap g := by
  induction n with
  | zero => intro i; rfl
  | succ n ih =>
    intro i
    rw [List.range'_succ, List.flatMap_cons, Db.performed_append, loopEvents, List.filterMap_append, h,
      rowFail_eq, Db.scanned, Db.scanned, List.filterMap_append, List.flatMap_append]
    split
    · rfl
    · rw [ih]; rfl

theorem row_scanned (i : Nat) :
    D.scanned (D.performed (rowSteps q t i)) = if (D.fails .rowsScan i).isSome then [] else [i] := by
  unfold rowSteps
  cases hs : D.fails .rowsScan i with
  | some e => simp [Db.performed, hs, Db.scanned]
  | none =>
    by_cases hk : keepOf q t = .iterate <;> simp [Db.performed, hs, Db.scanned, hk]

theorem flatMap_single {α : Type} (l : List α) : l.flatMap (fun i => [i]) = l := by
  induction l <;> simp_all

theorem flatMap_none {α β : Type} (l : List α) : l.flatMap (fun _ => ([] : List β)) = [] := by
  induction l <;> simp_all

theorem loop_after (n i : Nat) : (loopEvents D q t i n).filterMap Event.after? =
    if afterScans q t then D.scanned (D.performed ((List.range' i n).flatMap (rowSteps q t))) else [] := by
  rw [loop_other D q t _ (fun i => if afterScans q t then [i] else [])]
  · split
    · exact flatMap_single _
    · exact flatMap_none _
  · intro i
    rw [row_scanned]
    unfold rowEvents
    cases hs : D.fails .rowsScan i with
    | some e => simp [Event.after?, List.filterMap_cons]
    | none =>
      by_cases hk : keepOf q t = .iterate <;> by_cases ha : afterScans q t = true <;> simp [Event.after?, List.filterMap_cons, hk, ha]

theorem loop_kept (n i : Nat) : (loopEvents D q t i n).filterMap Event.kept? =
    if keepOf q t = .iterate then [] else D.scanned (D.performed ((List.range' i n).flatMap (rowSteps q t))) := by
  rw [loop_other D q t _ (fun i => if keepOf q t = .iterate then [] else [i])]
  · split
    · exact flatMap_none _
    · exact flatMap_single _
  · intro i
    rw [row_scanned]
    unfold rowEvents
    cases hs : D.fails .rowsScan i with
    | some e => simp [Event.kept?, List.filterMap_cons]
    | none =>
      by_cases hk : keepOf q t = .iterate <;> by_cases ha : afterScans q t = true <;> simp [Event.kept?, List.filterMap_cons, hk, ha]

theorem loop_told (n i : Nat) : (loopEvents D q t i n).filterMap Event.told? = [] := by
  rw [loop_other D q t _ (fun _ => [])]
  · exact flatMap_none _
  · intro i
    rw [flatMap_none]
    unfold rowEvents
    cases hs : D.fails .rowsScan i with
    | some e => simp [Event.told?, List.filterMap_cons]
    | none =>
      by_cases hk : keepOf q t = .iterate <;> by_cases ha : afterScans q t = true <;> simp [Event.told?, List.filterMap_cons, hk, ha]

theorem loop_affected (n i : Nat) : (loopEvents D q t i n).filterMap Event.affected? = [] := by
  rw [loop_other D q t _ (fun _ => [])]
  · exact flatMap_none _
  · intro i
    rw [flatMap_none]
    unfold rowEvents
    cases hs : D.fails .rowsScan i with
    | some e => simp [Event.affected?, List.filterMap_cons]
    | none =>
      by_cases hk : keepOf q t = .iterate <;> by_cases ha : afterScans q t = true <;> simp [Event.affected?, List.filterMap_cons, hk, ha]

theorem loop_closed (n : Nat) : ∀ i, Event.closed ∉ loopEvents D q t i n := by
  induction n with
  | zero => intro i; simp [loopEvents]
  | succ n ih =>
    intro i
    rw [loopEvents, List.mem_append]
    rintro (h | h)
    · unfold rowEvents at h
      cases hs : D.fails .rowsScan i with
      | some e => simp [hs] at h
      | none =>
        by_cases hk : keepOf q t = .iterate <;> by_cases ha : afterScans q t = true <;> simp [hk, ha, hs] at h
    · split at h
      · simp at h
      · exact ih _ h

/-! ### C68 -/

/-- What is observed apart from rows: a shape common to all runs. -/
theorem told_calls (e : Option E) : (told q e).filterMap Event.call? = [] := by
  unfold told; rcases q.errorHandler with _ | ⟨f, _ | _⟩ <;> rfl
theorem told_after (e : Option E) : (told q e).filterMap Event.after? = [] := by
  unfold told; rcases q.errorHandler with _ | ⟨f, _ | _⟩ <;> rfl
theorem told_kept (e : Option E) : (told q e).filterMap Event.kept? = [] := by
  unfold told; rcases q.errorHandler with _ | ⟨f, _ | _⟩ <;> rfl
theorem told_affected (e : Option E) : (told q e).filterMap Event.affected? = [] := by
  unfold told; rcases q.errorHandler with _ | ⟨f, _ | _⟩ <;> rfl
theorem told_told (e : Option E) : (told q e).filterMap Event.told? = if q.errorHandler.isSome then [e] else [] := by
  unfold told; rcases q.errorHandler with _ | ⟨f, _ | _⟩ <;> rfl
theorem told_closed (e : Option E) : Event.closed ∉ told q e := by
  unfold told; rcases q.errorHandler with _ | ⟨f, _ | _⟩ <;> simp

theorem successAnswer_affected (hc : callOf q = .exec) (hr : q.rowsAffected.isSome = true) :
    toldOfSuccess q t = false := by
  unfold toldOfSuccess
  rcases q.errorHandler with _ | ⟨f, _ | _⟩ <;> simp [hc] <;> cases h : q.rowsAffected <;> simp_all

/-- **C68** A run of a generated method always returns.  If a call fails, the caller is given its error, or what
the handler makes of it; otherwise nil, or what the handler makes of nil if it is told. -/
theorem C68_returned : (runMethod D q t).2 = some
    (match D.firstError (steps q t D.rows) with
     | some e => D.answer q (some e)
     | none => if toldOfSuccess q t then D.answer q none else none) := by
  cases hc : callOf q with
  | exec =>
    cases hr : q.rowsAffected with
    | none =>
      rw [runMethod_exec D q t hc hr]
      simp only [steps, hc, hr, Db.firstError_cons, Db.firstError_nil, lastAnswer, successAnswer]
      cases D.fails .exec 0 <;> simp_all
    | some x =>
      obtain ⟨f, k⟩ := x
      rw [runMethod_affected D q t hc f k hr]
      have hs := successAnswer_affected q t hc (by simp [hr])
      simp only [steps, hc, hr, Db.firstError_cons, Db.firstError_nil, hs]
      cases h1 : D.fails .exec 0 with
      | some e => simp [h1]
      | none => cases h2 : D.fails .rowsAffected 0 <;> simp [h1, h2]
  | row =>
    rw [runMethod_row D q t hc]
    simp only [steps, hc, Db.firstError_cons, Db.firstError_nil, lastAnswer, successAnswer]
    cases h : D.fails .rowScan 0 <;> simp [h]
  | rows =>
    rw [runMethod_rows D q t hc, loopFail_eq]
    simp only [steps, hc, List.cons_append, Db.firstError_cons, Db.firstError_append, Db.firstError_nil, Option.or_none]
    cases h1 : D.fails .query 0 with
    | some e => simp
    | none =>
      cases h2 : D.firstError ((List.range' 0 D.rows).flatMap (rowSteps q t)) with
      | some e => simp
      | none =>
        simp only [Option.none_or, lastAnswer, successAnswer]

theorem success_calls : (success (E := E) q t).filterMap Event.call? = [] := by
  unfold success; split <;> simp [told_calls]

/-- **C68** The calls of the method are made in order up to the first that fails. -/
theorem C68_performed : (runMethod D q t).1.filterMap Event.call? = D.performed (steps q t D.rows) := by
  cases hc : callOf q with
  | exec =>
    cases hr : q.rowsAffected with
    | none =>
      rw [runMethod_exec D q t hc hr]
      simp only [steps, hc, hr, lastCall, Db.performed]
      cases D.fails .exec 0 <;> simp [Event.call?, List.filterMap_cons, told_calls, success_calls, Db.performed]
    | some x =>
      obtain ⟨f, k⟩ := x
      rw [runMethod_affected D q t hc f k hr]
      simp only [steps, hc, hr, Db.performed]
      cases h1 : D.fails .exec 0 with
      | some e => simp [Event.call?, List.filterMap_cons, told_calls]
      | none => cases h2 : D.fails .rowsAffected 0 <;> simp [Event.call?, List.filterMap_cons, told_calls, Db.performed]
  | row =>
    rw [runMethod_row D q t hc]
    simp only [steps, hc, Db.performed]
    cases h : D.fails .rowScan 0 with
    | some e => simp [Event.call?, List.filterMap_cons, told_calls]
    | none => by_cases ha : afterScans q t = true <;> simp [Event.call?, List.filterMap_cons, success_calls, ha]
  | rows =>
    rw [runMethod_rows D q t hc]
    simp only [steps, hc, List.cons_append, Db.performed]
    cases h1 : D.fails .query 0 with
    | some e => simp [Event.call?, List.filterMap_cons, told_calls]
    | none =>
      rw [Db.performed_append, ← loopFail_eq]
      cases h2 : loopFail D q t 0 D.rows with
      | some e => simp [Event.call?, List.filterMap_cons, told_calls, loop_calls]
      | none =>
        simp only [lastCall, Db.performed]
        cases h3 : D.fails .rowsErr 0 <;>
          simp [Event.call?, List.filterMap_cons, told_calls, loop_calls, success_calls]

theorem success_told : (success (E := E) q t).filterMap Event.told? = if toldOfSuccess q t then [none] else [] := by
  unfold success
  cases h : toldOfSuccess q t
  · rfl
  · simp only [if_true, told_told]
    rw [if_pos]
    unfold toldOfSuccess at h
    cases hh : q.errorHandler <;> simp_all

/-- **C68** The handler is told at most once: of the first error, or, as `toldOfSuccess` says, of success. -/
theorem C68_told : (runMethod D q t).1.filterMap Event.told? =
    match D.firstError (steps q t D.rows) with
    | some e => if q.errorHandler.isSome then [some e] else []
    | none => if toldOfSuccess q t then [none] else [] := by
  cases hc : callOf q with
  | exec =>
    cases hr : q.rowsAffected with
    | none =>
      rw [runMethod_exec D q t hc hr]
      simp only [steps, hc, hr, Db.firstError_cons, Db.firstError_nil, lastCall]
      cases D.fails .exec 0 <;> simp [Event.told?, List.filterMap_cons, told_told, success_told]
    | some x =>
      obtain ⟨f, k⟩ := x
      rw [runMethod_affected D q t hc f k hr]
      have hs := successAnswer_affected q t hc (by simp [hr])
      simp only [steps, hc, hr, Db.firstError_cons, Db.firstError_nil, hs]
      cases h1 : D.fails .exec 0 with
      | some e => simp [h1, Event.told?, List.filterMap_cons, told_told]
      | none => cases h2 : D.fails .rowsAffected 0 <;> simp [h1, h2, Event.told?, List.filterMap_cons, told_told]
  | row =>
    rw [runMethod_row D q t hc]
    simp only [steps, hc, Db.firstError_cons, Db.firstError_nil]
    cases h : D.fails .rowScan 0 with
    | some e => simp [h, Event.told?, List.filterMap_cons, told_told]
    | none => by_cases ha : afterScans q t = true <;> simp [h, Event.told?, List.filterMap_cons, success_told, ha]
  | rows =>
    rw [runMethod_rows D q t hc, loopFail_eq]
    simp only [steps, hc, List.cons_append, Db.firstError_cons, Db.firstError_append, Db.firstError_nil, Option.or_none]
    cases h1 : D.fails .query 0 with
    | some e => simp [Event.told?, List.filterMap_cons, told_told]
    | none =>
      cases h2 : D.firstError ((List.range' 0 D.rows).flatMap (rowSteps q t)) with
      | some e => simp [Event.told?, List.filterMap_cons, told_told, loop_told]
      | none =>
        simp only [Option.none_or, lastCall]
        cases h3 : D.fails .rowsErr 0 <;> simp [Event.told?, List.filterMap_cons, told_told, loop_told, success_told]

theorem success_after : (success (E := E) q t).filterMap Event.after? = [] := by
  unfold success; split <;> simp [told_after]
theorem success_kept : (success (E := E) q t).filterMap Event.kept? = [] := by
  unfold success; split <;> simp [told_kept]
theorem success_affected : (success (E := E) q t).filterMap Event.affected? = [] := by
  unfold success; split <;> simp [told_affected]
theorem success_closed : Event.closed ∉ success (E := E) q t := by
  unfold success; split <;> simp [told_closed]

theorem scanned_rows (n : Nat) (hc : callOf q = .rows) (hq : D.fails .query 0 = none) :
    D.scanned (D.performed (steps q t n)) = D.scanned (D.performed ((List.range' 0 n).flatMap (rowSteps q t))) := by
  have h1 : ∀ l, D.scanned ((.query, 0) :: l) = D.scanned l := by intro l; simp [Db.scanned]
  have h2 : D.scanned [(.rowsErr, 0)] = [] := by simp [Db.scanned]
  have h3 : D.performed [(.rowsErr, 0)] = [(.rowsErr, 0)] := by simp [Db.performed]
  simp only [steps, hc, List.cons_append, Db.performed, hq, Option.isSome_none, Bool.false_eq_true, if_false, h1]
  rw [Db.performed_append, h3, Db.scanned, List.filterMap_append]
  split
  · simp [Db.scanned]
  · rw [← Db.scanned, ← Db.scanned, h2, List.append_nil]

theorem Db.scanned_append (l m : List (Op × Nat)) : D.scanned (l ++ m) = D.scanned l ++ D.scanned m := by
  simp [Db.scanned]

/-- **C68** AfterScan is called for each row whose scan succeeded, in order. -/
theorem C68_after_scan : (runMethod D q t).1.filterMap Event.after? =
    if afterScans q t then D.scanned (D.performed (steps q t D.rows)) else [] := by
  cases hc : callOf q with
  | exec =>
    cases hr : q.rowsAffected with
    | none =>
      rw [runMethod_exec D q t hc hr]
      simp only [steps, hc, hr, Db.performed, lastCall]
      cases D.fails .exec 0 <;> simp [Event.after?, List.filterMap_cons, told_after, success_after, Db.scanned, Db.performed]
    | some x =>
      obtain ⟨f, k⟩ := x
      rw [runMethod_affected D q t hc f k hr]
      simp only [steps, hc, hr, Db.performed]
      cases h1 : D.fails .exec 0 with
      | some e => simp [Event.after?, List.filterMap_cons, told_after, Db.scanned]
      | none =>
        cases h2 : D.fails .rowsAffected 0 <;> simp [Event.after?, List.filterMap_cons, told_after, Db.scanned, Db.performed]
  | row =>
    rw [runMethod_row D q t hc]
    simp only [steps, hc, Db.performed]
    cases h : D.fails .rowScan 0 with
    | some e => simp [h, Event.after?, List.filterMap_cons, told_after, Db.scanned]
    | none => by_cases ha : afterScans q t = true <;> simp [h, Event.after?, List.filterMap_cons, success_after, ha, Db.scanned]
  | rows =>
    rw [runMethod_rows D q t hc]
    cases h1 : D.fails .query 0 with
    | some e =>
      have : D.scanned (D.performed (steps q t D.rows)) = [] := by
        simp [steps, hc, Db.performed, h1, Db.scanned]
      simp [Event.after?, List.filterMap_cons, told_after, this]
    | none =>
      rw [scanned_rows D q t D.rows hc h1]
      cases h2 : loopFail D q t 0 D.rows with
      | some e => simp [Event.after?, List.filterMap_cons, told_after, loop_after]
      | none =>
        simp only [lastCall]
        cases h3 : D.fails .rowsErr 0 <;>
          simp [Event.after?, List.filterMap_cons, told_after, loop_after, success_after]

/-- **C68** A row of a loop is kept (appended, or counted) exactly if its scan succeeded, unless there is an
iterator. -/
theorem C68_kept (hc : callOf q = .rows) : (runMethod D q t).1.filterMap Event.kept? =
    if keepOf q t = .iterate then [] else D.scanned (D.performed (steps q t D.rows)) := by
  rw [runMethod_rows D q t hc]
  cases h1 : D.fails .query 0 with
  | some e =>
    have : D.scanned (D.performed (steps q t D.rows)) = [] := by
      simp [steps, hc, Db.performed, h1, Db.scanned]
    simp [Event.kept?, List.filterMap_cons, told_kept, this]
  | none =>
    rw [scanned_rows D q t D.rows hc h1]
    cases h2 : loopFail D q t 0 D.rows with
    | some e => simp [Event.kept?, List.filterMap_cons, told_kept, loop_kept]
    | none =>
      simp only [lastCall]
      cases h3 : D.fails .rowsErr 0 <;>
        simp [Event.kept?, List.filterMap_cons, told_kept, loop_kept, success_kept]

/-- **C68** The rows are closed, as the last thing, exactly if there are rows: if Query was called and did not
fail. -/
theorem C68_closed : ∃ l, Event.closed ∉ l ∧ (runMethod D q t).1 =
    l ++ if callOf q = .rows ∧ D.fails .query 0 = none then [.closed] else [] := by
  cases hc : callOf q with
  | exec =>
    refine ⟨(runMethod D q t).1, ?_, by simp⟩
    cases hr : q.rowsAffected with
    | none =>
      rw [runMethod_exec D q t hc hr]
      simp only [lastCall]
      cases D.fails .exec 0 <;> simp [told_closed, success_closed]
    | some x =>
      obtain ⟨f, k⟩ := x
      rw [runMethod_affected D q t hc f k hr]
      cases h1 : D.fails .exec 0 with
      | some e => simp [told_closed]
      | none => cases h2 : D.fails .rowsAffected 0 <;> simp [told_closed]
  | row =>
    refine ⟨(runMethod D q t).1, ?_, by simp⟩
    rw [runMethod_row D q t hc]
    cases h : D.fails .rowScan 0 with
    | some e => simp [told_closed]
    | none => by_cases ha : afterScans q t = true <;> simp [success_closed, ha]
  | rows =>
    rw [runMethod_rows D q t hc]
    cases h1 : D.fails .query 0 with
    | some e => exact ⟨.called .query 0 :: told q (some e), by simp [told_closed], by simp⟩
    | none =>
      cases h2 : loopFail D q t 0 D.rows with
      | some e =>
        refine ⟨.called .query 0 :: loopEvents D q t 0 D.rows ++ told q (some e), ?_, by simp⟩
        simp [told_closed, loop_closed]
      | none =>
        refine ⟨.called .query 0 :: loopEvents D q t 0 D.rows ++ lastCall D q t .rowsErr, ?_, by simp⟩
        simp only [lastCall]
        cases h3 : D.fails .rowsErr 0 <;> simp [told_closed, loop_closed, success_closed]

/-- **C68** The RowsAffected field is set exactly if nothing fails, to the number of rows converted to its
type. -/
theorem C68_affected : (runMethod D q t).1.filterMap Event.affected? =
    match q.rowsAffected with
    | none => []
    | some (_, k) =>
      if callOf q = .exec ∧ (D.firstError (steps q t D.rows)).isNone = true then
        [if k = .int64 then D.affected else convertTo k D.affected] else [] := by
  cases hc : callOf q with
  | exec =>
    cases hr : q.rowsAffected with
    | none =>
      rw [runMethod_exec D q t hc hr]
      simp only [lastCall]
      cases D.fails .exec 0 <;> simp [Event.affected?, List.filterMap_cons, told_affected, success_affected]
    | some x =>
      obtain ⟨f, k⟩ := x
      rw [runMethod_affected D q t hc f k hr]
      simp only [steps, hc, hr, Db.firstError_cons, Db.firstError_nil]
      cases h1 : D.fails .exec 0 with
      | some e => simp [h1, Event.affected?, List.filterMap_cons, told_affected]
      | none =>
        cases h2 : D.fails .rowsAffected 0 with
        | some e => simp [h1, h2, Event.affected?, List.filterMap_cons, told_affected]
        | none => by_cases hk : k = Kind.int64 <;> simp [h1, h2, Event.affected?, List.filterMap_cons, assigned, hk]
  | row =>
    have : (runMethod D q t).1.filterMap Event.affected? = [] := by
      rw [runMethod_row D q t hc]
      cases h : D.fails .rowScan 0 with
      | some e => simp [Event.affected?, List.filterMap_cons, told_affected]
      | none => by_cases ha : afterScans q t = true <;> simp [Event.affected?, List.filterMap_cons, success_affected, ha]
    rw [this]; cases q.rowsAffected <;> simp
  | rows =>
    have : (runMethod D q t).1.filterMap Event.affected? = [] := by
      rw [runMethod_rows D q t hc]
      cases h1 : D.fails .query 0 with
      | some e => simp [Event.affected?, List.filterMap_cons, told_affected]
      | none =>
        cases h2 : loopFail D q t 0 D.rows with
        | some e => simp [Event.affected?, List.filterMap_cons, told_affected, loop_affected]
        | none =>
          simp only [lastCall]
          cases h3 : D.fails .rowsErr 0 <;>
            simp [Event.affected?, List.filterMap_cons, told_affected, loop_affected, success_affected]
    rw [this]; cases q.rowsAffected <;> simp

/-- **C68** A row that is scanned is given to AfterScan, then to the iterator or kept; the next row comes after
that. -/
theorem C68_rows (hc : callOf q = .rows) (h : D.firstError (steps q t D.rows) = none) :
    (runMethod D q t).1 = .called .query 0 ::
      (List.range' 0 D.rows).flatMap (fun i => .called .rowsScan i ::
        (if afterScans q t then [.afterScan i] else []) ++
        [if keepOf q t = .iterate then .called .visit i else .kept i]) ++
      .called .rowsErr 0 :: (if toldOfSuccess q t then told q none else []) ++ [.closed] := by
  rw [runMethod_rows D q t hc, loopFail_eq]
  simp only [steps, hc, List.cons_append, Db.firstError_cons, Db.firstError_append, Db.firstError_nil,
    Option.or_none, Option.or_eq_none_iff] at h
  obtain ⟨h1, h2, h3⟩ := h
  simp only [h1, h2, lastCall, h3, success]
  have key : ∀ n i, D.firstError ((List.range' i n).flatMap (rowSteps q t)) = none →
      loopEvents D q t i n = (List.range' i n).flatMap (fun i => .called .rowsScan i ::
        (if afterScans q t then [.afterScan i] else []) ++
        [if keepOf q t = .iterate then .called .visit i else .kept i]) := by
    intro n
    induction n with
    | zero => intro i _; rfl
    | succ n ih =>
      intro i hi
      rw [List.range'_succ, List.flatMap_cons, Db.firstError_append, Option.or_eq_none_iff] at hi
      rw [List.range'_succ, List.flatMap_cons, loopEvents, rowFail_eq, hi.1, if_neg (by simp), ih _ hi.2]
      congr 1
      have hf : D.fails .rowsScan i = none := by
        have := hi.1
        simp only [rowSteps, Db.firstError_cons, Option.or_eq_none_iff] at this
        exact this.1
      by_cases hk : keepOf q t = .iterate <;> simp [rowEvents, hf, hk]
  rw [key _ _ h2]
end

/-! ### Accepted queries -/

/-- **C68** A query with a RowsAffected field is run by Exec, and the field is of an integer type. -/
theorem C68_affected_exec {cat : Catalog} {q : Query} {t : TargetInfo} (h : Built cat q t) (f : Bytes) (k : Kind)
    (hr : q.rowsAffected = some (f, k)) : callOf q = .exec ∧ ∃ g, goInt k = some g := by
  obtain ⟨env, cache, n, fs, s, e, rfl⟩ := h.analyzed
  obtain ⟨_, h1, h2⟩ := C33_results env cache n fs s e
  have hs : s.q.kind.isSelect = false := by
    cases hk : s.q.kind.isSelect with
    | false => rfl
    | true => have := h2 hk; simp [Query.resultTargets, b2n, hr] at this
  have hn : s.q.ret = none ∧ s.q.result = none := by
    simp only [Query.resultTargets, b2n, hr] at h1
    cases hx : s.q.ret <;> cases hy : s.q.result <;> simp_all
  refine ⟨by simp [callOf, isWithoutOutput, hn.1, hn.2, hs], ?_⟩
  obtain ⟨m, hm⟩ := (analyzeQuery_fits e).affected _ hr
  cases k <;> simp [isIntegerType] at hm <;> exact ⟨_, rfl⟩

/-- The number fits the type. -/
def holdsInt (g : Pgsql.GoInt) (x : Int) : Prop :=
  if g.signed then -2 ^ (g.bits - 1) ≤ x ∧ x < 2 ^ (g.bits - 1) else 0 ≤ x ∧ x < 2 ^ g.bits

/-- **C68** The number of affected rows is stored unchanged if the field's type holds it. -/
theorem C68_count_partial {k : Kind} {g : Pgsql.GoInt} (hg : goInt k = some g) (x : Int) (h : holdsInt g x) :
    (if k = .int64 then x else convertTo k x) = x := by
  split
  · rfl
  · rw [convertTo, hg]
    simp only [Pgsql.GoInt.conv]
    unfold holdsInt at h
    cases g <;> simp only [Pgsql.GoInt.signed, Pgsql.GoInt.bits, if_true, if_false, Bool.false_eq_true] at h ⊢ <;> omega

theorem toKind_kind {s s' : St1} {k : QKind} {r : RelField} {rs : RelSpace} (hk : kindName k = b!"Select")
    (e : toKind s k r rs = .ok s') : kindName s'.kind = kindName s.kind := by
  unfold toKind at e
  rw [Res.map_eq_ok] at e
  obtain ⟨_, h, rfl⟩ := e
  have h : s.kind = .select := by simpa using failIf_ok h
  rw [h]; exact hk

theorem analyzeRelField_kind {env : Env} {s s' : St1} {h : FieldHdr} {t : Ty}
    (e : analyzeRelField env s h t = .ok s') : kindName s'.kind = kindName s.kind := by
  unfold analyzeRelField at e
  simp only [Res.bind_eq_ok] at e
  obtain ⟨_, _, rid, _, rs, _, e⟩ := e
  split at e
  · exact toKind_kind rfl e
  split at e
  · exact toKind_kind rfl e
  split at e
  · exact toKind_kind rfl e
  rw [Res.bind_eq_ok] at e
  obtain ⟨d, _, e⟩ := e
  split at e
  · rw [Res.map_eq_ok] at e; obtain ⟨_, _, rfl⟩ := e; rfl
  · simp only [Res.bind_eq_ok, Res.map_eq_ok] at e; obtain ⟨_, _, _, _, rfl⟩ := e; rfl

theorem relFieldsLoop_kind {env : Env} {fs : List Field} : ∀ {s s' : St1},
    relFieldsLoop env s fs = .ok s' → kindName s'.kind = kindName s.kind := by
  induction fs with
  | nil => intro s s' e; rw [relFieldsLoop] at e; cases e; rfl
  | cons f fs ih =>
    intro s s' e
    rw [relFieldsLoop] at e
    split at e
    · rw [Res.bind_eq_ok] at e
      obtain ⟨s1, h1, e⟩ := e
      rw [ih e, analyzeRelField_kind h1]
    · exact ih e

/-- **C68** The kind of query that an info handler is told is the beginning of the type's name, in any case. -/
theorem C68_kind {cat : Catalog} {q : Query} {t : TargetInfo} (h : Built cat q t) :
    (tolower q.typeName).take 6 = lower (kindName q.kind) := by
  obtain ⟨env, cache, n, fs, s, e, rfl⟩ := h.analyzed
  obtain ⟨k, r, s1, hk, h1, _, h2⟩ := analyzeQuery_split e
  obtain ⟨hk2, _, ht, _⟩ := queryFields_spec h2
  rw [hk2, ht]
  simp only
  rw [relFieldsLoop_kind hk]
  unfold queryKind at h1
  simp only at h1
  split at h1
  · next hx => cases h1; rw [hx]; rfl
  split at h1
  · next hx => cases h1; rw [hx]; rfl
  split at h1
  · next hx => cases h1; rw [hx]; rfl
  split at h1
  · next hx => cases h1; rw [hx]; rfl
  · cases h1

/-- **C68** The method of the connection takes a context exactly if its name ends in Context; the context is the
parameter of the method or else the field of the query. -/
theorem C68_context (ctx : Bool) (q : Query) :
    connCall ctx q =
      let m := match callOf q with
        | .exec => b!"Exec"
        | .row => b!"QueryRow"
        | .rows => b!"Query"
      match ctx, q.context with
      | true, _ => (m ++ b!"Context", [b!"ctx", b!"queryString"])
      | false, some f => (m ++ b!"Context", [b!"q." ++ f, b!"queryString"])
      | false, none => (m, [b!"queryString"]) := by
  unfold connCall
  cases callOf q <;> cases ctx <;> cases q.context <;> simp

end Verif.Generator
