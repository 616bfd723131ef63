import Verif.Analysis.Mode

/-
Property C37: field mode options.
-/
namespace Verif.Analysis

/-- The five things a field's options decide. -/
inductive Perm where
  | select | filter | insert | update | notNull
deriving Repr, DecidableEq

/-- Permissions are given and NOT NULL is off unless an option says otherwise. -/
def Perm.default : Perm → Bool
  | .notNull => false
  | _ => true

/-- What a letter stands for. -/
def letterPerms : Char → List Perm
  | 'r' => [.select, .filter]
  | 'w' => [.insert, .update]
  | 's' => [.select]
  | 'f' => [.filter]
  | 'i' => [.insert]
  | 'u' => [.update]
  | _ => []

/-- What an option mentions, in order. -/
def mentions : Bytes → List (Perm × Bool)
  | ['r', 'o'] => [(.insert, false), (.update, false)]
  | ['w', 'o'] => [(.select, false), (.filter, false)]
  | ['x', 'f'] => [(.filter, false)]
  | ['n', 'n'] => [(.notNull, true)]
  | '-' :: cs => cs.flatMap fun c =>
      if c = 'N' then [(.notNull, true)] else (letterPerms c).map (·, false)
  | '+' :: cs => cs.flatMap fun c =>
      if c = 'N' then [(.notNull, false)] else (letterPerms c).map (·, true)
  | _ => []

/-- The last mention counts. -/
def lastMention (p : Perm) (ms : List (Perm × Bool)) : Bool :=
  match (ms.filter fun m => m.1 = p).getLast? with
  | some m => m.2
  | none => p.default

/-- What a mode says about each of them. -/
def FieldMode.get (m : FieldMode) : Perm → Bool
  | .select => m.canSelect
  | .filter => !m.canExcludeFilter
  | .insert => m.canInsert
  | .update => m.canUpdate
  | .notNull => m.treatAsNotNull

/-! ### Bits -/

def Perm.bit : Perm → Nat
  | .select => 0 | .filter => 1 | .insert => 2 | .update => 3 | .notNull => 4

theorem has_bit (m : FieldMode) (i : Nat) (h : i < 64) :
    FieldMode.has m (1#64 <<< i) = m.getLsbD i := by
  have e : (1#64 <<< i) = BitVec.twoPow 64 i := by
    rw [BitVec.twoPow]
  rw [FieldMode.has, e, BitVec.and_twoPow]
  cases hb : m.getLsbD i with
  | false => simp
  | true =>
    simp only [if_true, ne_eq, decide_eq_true_eq]
    intro h0
    have := congrArg (fun v => BitVec.getLsbD v i) h0
    simp [h] at this

theorem get_bit (m : FieldMode) (p : Perm) : m.get p = m.getLsbD p.bit := by
  have := has_bit m
  cases p
  · exact this 0 (by decide)
  · rw [FieldMode.get, FieldMode.canExcludeFilter, Bool.not_not]; exact this 1 (by decide)
  · exact this 2 (by decide)
  · exact this 3 (by decide)
  · exact this 4 (by decide)

theorem get_clear (m v : FieldMode) (p : Perm) :
    (m.clear v).get p = (m.get p && !v.getLsbD p.bit) := by
  rw [get_bit, get_bit, FieldMode.clear, BitVec.getLsbD_and, BitVec.getLsbD_not]
  cases p <;> simp [Perm.bit]

theorem get_add (m v : FieldMode) (p : Perm) : (m.add v).get p = (m.get p || v.getLsbD p.bit) := by
  rw [get_bit, get_bit, FieldMode.add, BitVec.getLsbD_or]

theorem bits_single (p : Perm) :
    modeSelect.getLsbD p.bit = decide (p = .select) ∧
    modeFilter.getLsbD p.bit = decide (p = .filter) ∧
    modeInsert.getLsbD p.bit = decide (p = .insert) ∧
    modeUpdate.getLsbD p.bit = decide (p = .update) ∧
    modeNotnull.getLsbD p.bit = decide (p = .notNull) ∧
    modeRead.getLsbD p.bit = decide (p = .select ∨ p = .filter) ∧
    modeWrite.getLsbD p.bit = decide (p = .insert ∨ p = .update) := by
  cases p <;> decide

/-- Following a list of mentions. -/
def follow (p : Perm) (b : Bool) (ms : List (Perm × Bool)) : Bool :=
  ms.foldl (fun b m => if m.1 = p then m.2 else b) b

theorem follow_last (p : Perm) (b : Bool) (ms : List (Perm × Bool)) :
    follow p b ms = match (ms.filter fun m => m.1 = p).getLast? with
      | some m => m.2
      | none => b := by
  induction ms generalizing b with
  | nil => rfl
  | cons m ms ih =>
    rw [follow, List.foldl_cons]
    have := ih (if m.1 = p then m.2 else b)
    rw [follow] at this
    rw [this]
    by_cases h : m.1 = p
    · simp only [h, if_true, List.filter_cons, decide_true]
      cases hl : ms.filter fun m => m.1 = p with
      | nil => simp
      | cons x xs => simp [List.getLast?_eq_some_getLast]
    · simp [h]

theorem follow_append (p : Perm) (b : Bool) (xs ys : List (Perm × Bool)) :
    follow p b (xs ++ ys) = follow p (follow p b xs) ys := by simp [follow]

theorem letter_other (c : Char) (h : c ≠ 'r' ∧ c ≠ 'w' ∧ c ≠ 's' ∧ c ≠ 'f' ∧ c ≠ 'i' ∧ c ≠ 'u') :
    letterPerms c = [] := by
  unfold letterPerms
  split <;> simp_all

theorem minus_letter (m : FieldMode) (c : Char) (p : Perm) :
    (minusLetter m c).get p = follow p (m.get p)
      (if c = 'N' then [(.notNull, true)] else (letterPerms c).map (·, false)) := by
  unfold minusLetter
  by_cases h1 : c = 'r'
  · subst h1; cases p <;> simp [letterPerms, follow, get_clear, bits_single]
  by_cases h2 : c = 'w'
  · subst h2; cases p <;> simp [letterPerms, follow, get_clear, bits_single]
  by_cases h3 : c = 's'
  · subst h3; cases p <;> simp [letterPerms, follow, get_clear, bits_single]
  by_cases h4 : c = 'f'
  · subst h4; cases p <;> simp [letterPerms, follow, get_clear, bits_single]
  by_cases h5 : c = 'i'
  · subst h5; cases p <;> simp [letterPerms, follow, get_clear, bits_single]
  by_cases h6 : c = 'u'
  · subst h6; cases p <;> simp [letterPerms, follow, get_clear, bits_single]
  by_cases h7 : c = 'N'
  · subst h7; cases p <;> simp [follow, get_add, bits_single]
  simp [h1, h2, h3, h4, h5, h6, h7, letter_other c ⟨h1, h2, h3, h4, h5, h6⟩, follow]

theorem plus_letter (m : FieldMode) (c : Char) (p : Perm) :
    (plusLetter m c).get p = follow p (m.get p)
      (if c = 'N' then [(.notNull, false)] else (letterPerms c).map (·, true)) := by
  unfold plusLetter
  by_cases h1 : c = 'r'
  · subst h1; cases p <;> simp [letterPerms, follow, get_add, bits_single]
  by_cases h2 : c = 'w'
  · subst h2; cases p <;> simp [letterPerms, follow, get_add, bits_single]
  by_cases h3 : c = 's'
  · subst h3; cases p <;> simp [letterPerms, follow, get_add, bits_single]
  by_cases h4 : c = 'f'
  · subst h4; cases p <;> simp [letterPerms, follow, get_add, bits_single]
  by_cases h5 : c = 'i'
  · subst h5; cases p <;> simp [letterPerms, follow, get_add, bits_single]
  by_cases h6 : c = 'u'
  · subst h6; cases p <;> simp [letterPerms, follow, get_add, bits_single]
  by_cases h7 : c = 'N'
  · subst h7; cases p <;> simp [follow, get_clear, bits_single]
  simp [h1, h2, h3, h4, h5, h6, h7, letter_other c ⟨h1, h2, h3, h4, h5, h6⟩, follow]

theorem fold_letters (f : FieldMode → Char → FieldMode) (g : Char → List (Perm × Bool))
    (h : ∀ m c p, (f m c).get p = follow p (m.get p) (g c)) (cs : Bytes) (m : FieldMode) (p : Perm) :
    (cs.foldl f m).get p = follow p (m.get p) (cs.flatMap g) := by
  induction cs generalizing m with
  | nil => rfl
  | cons c cs ih => rw [List.foldl_cons, ih, h, List.flatMap_cons, follow_append]

theorem option_mode (m : FieldMode) (opt : Bytes) (h : opt ≠ []) : ∃ m', modeOption m opt = .ok m' ∧
    ∀ p, m'.get p = follow p (m.get p) (mentions opt) := by
  match opt, h with
  | c :: cs, _ =>
    refine ⟨_, rfl, fun p => ?_⟩
    by_cases h1 : c = '-'
    · subst h1
      rw [if_pos rfl]
      have : mentions ('-' :: cs) = _ := rfl
      rw [this, fold_letters _ _ minus_letter]
      congr 1
    by_cases h2 : c = '+'
    · subst h2
      rw [if_neg (by decide), if_pos rfl]
      have : mentions ('+' :: cs) = _ := rfl
      rw [this, fold_letters _ _ plus_letter]
      congr 1
    rw [if_neg h1, if_neg h2, oldOption]
    by_cases e1 : c :: cs = b!"ro"
    · rw [e1, if_pos rfl, get_clear]; cases p <;> simp [mentions, follow, bits_single]
    rw [if_neg e1]
    by_cases e2 : c :: cs = b!"wo"
    · rw [e2, if_pos rfl, get_clear]; cases p <;> simp [mentions, follow, bits_single]
    rw [if_neg e2]
    by_cases e3 : c :: cs = b!"xf"
    · rw [e3, if_pos rfl, get_clear]; cases p <;> simp [mentions, follow, bits_single]
    rw [if_neg e3]
    by_cases e4 : c :: cs = b!"nn"
    · rw [e4, if_pos rfl, get_add]; cases p <;> simp [mentions, follow, bits_single]
    rw [if_neg e4]
    have : mentions (c :: cs) = [] := by
      unfold mentions
      split <;> simp_all
    rw [this]; rfl

theorem options_mode (m : FieldMode) (opts : List Bytes) (h : [] ∉ opts) :
    ∃ m', modeOptions m opts = .ok m' ∧
      ∀ p, m'.get p = follow p (m.get p) (opts.flatMap mentions) := by
  induction opts generalizing m with
  | nil => exact ⟨m, rfl, fun _ => rfl⟩
  | cons o os ih =>
    obtain ⟨m1, e1, h1⟩ := option_mode m o (fun e => h (by simp [e]))
    obtain ⟨m2, e2, h2⟩ := ih m1 (fun hm => h (by simp [hm]))
    refine ⟨m2, by rw [modeOptions, e1, Res.bind_ok, e2], fun p => ?_⟩
    rw [h2, h1, List.flatMap_cons, follow_append]

theorem default_mode (p : Perm) : FieldMode.get modeDefault p = p.default := by
  cases p <;> decide

/-- C37: with no empty option among the ones after the column, each permission of the resulting mode is
decided by the last option mentioning it, and is the default if none does. -/
theorem C37_last_mention (t : Tag) (col : Bytes) (opts : List Bytes) (ht : t.get b!"sql" = col :: opts)
    (h : [] ∉ opts) : ∃ m, parseFieldMode t = .ok m ∧
      ∀ p, m.get p = lastMention p (opts.flatMap mentions) := by
  obtain ⟨m, e, hm⟩ := options_mode modeDefault opts h
  refine ⟨m, by rw [parseFieldMode, ht]; exact e, fun p => ?_⟩
  rw [hm, follow_last, lastMention, default_mode]

/-- C37: without options, or without an `sql` tag, everything is allowed. -/
theorem C37_default (t : Tag) (h : (t.get b!"sql").length ≤ 1) : ∃ m, parseFieldMode t = .ok m ∧
    ∀ p, m.get p = p.default := by
  refine ⟨modeDefault, ?_, default_mode⟩
  rw [parseFieldMode]
  match e : t.get b!"sql", h with
  | [], _ => rfl
  | [_], _ => rfl
  | _ :: _ :: _, h => simp at h

/-- C37: an empty option is a run-time panic, and nothing else is; there are no errors. -/
theorem C37_panic (t : Tag) : (parseFieldMode t = .panic ↔ [] ∈ (t.get b!"sql").drop 1) ∧
    ∀ e, parseFieldMode t ≠ .err e := by
  rw [parseFieldMode]
  match t.get b!"sql" with
  | [] => simp
  | _ :: opts =>
    simp only [List.drop_succ_cons, List.drop_zero]
    generalize modeDefault = m
    induction opts generalizing m with
    | nil => simp [modeOptions]
    | cons o os ih =>
      match o with
      | [] => simp [modeOptions, modeOption]
      | c :: cs =>
        obtain ⟨m1, e1, -⟩ := option_mode m (c :: cs) (by simp)
        rw [modeOptions, e1, Res.bind_ok]
        simpa using ih m1

/-- C37: the abbreviations. `ro` allows reading only, `wo` writing only, `xf` excludes the field from
filters, `nn` marks it NOT NULL; each leaves the rest alone. -/
theorem C37_abbreviations : mentions b!"ro" = mentions b!"-w" ∧ mentions b!"wo" = mentions b!"-r" ∧
    mentions b!"xf" = mentions b!"-f" ∧ mentions b!"nn" = mentions b!"-N" ∧
    mentions b!"-r" = mentions b!"-sf" ∧ mentions b!"-w" = mentions b!"-iu" ∧
    mentions b!"+r" = mentions b!"+sf" ∧ mentions b!"+w" = mentions b!"+iu" := by decide

/-- C37: read-only is "select but neither insert nor update", write-only is "insert or update but not
select". A field with neither is called neither. -/
theorem C37_only (m : FieldMode) :
    (m.isReadOnly = true ↔ m.get .select = true ∧ m.get .insert = false ∧ m.get .update = false) ∧
    (m.isWriteOnly = true ↔
      (m.get .insert = true ∨ m.get .update = true) ∧ m.get .select = false) := by
  simp [FieldMode.isReadOnly, FieldMode.isWriteOnly, FieldMode.get, and_assoc]

/-- `sql:"a,ro,+i,nullempty,-N"`: insertable but not updatable, NOT NULL. -/
example : ∃ m, parseFieldMode [(b!"sql", [b!"a", b!"ro", b!"+i", b!"nullempty", b!"-N"])] = .ok m ∧
    [Perm.select, .filter, .insert, .update, .notNull].map m.get = [true, true, true, false, true] :=
  ⟨_, rfl, by decide⟩
/-- Order matters: `-i,+w` against `+w,-i`. -/
example : lastMention .insert ([b!"-i", b!"+w"].flatMap mentions) = true ∧
    lastMention .insert ([b!"+w", b!"-i"].flatMap mentions) = false := by decide
example : parseFieldMode [(b!"sql", [b!"a", b!""])] = .panic := by decide

end Verif.Analysis
