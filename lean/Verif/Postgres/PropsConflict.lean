import Verif.Postgres.Check
import Verif.Analysis.PropsWhere

/-
Properties C46 (conflict targets given by columns) and C47 (index expressions).
-/
namespace Verif.Postgres
open Verif.Analysis

/-! ### Lists of results -/

/-- Two lists correspond element by element. -/
inductive Pairwise2 {α β : Type} (r : α → β → Prop) : List α → List β → Prop where
  | nil : Pairwise2 r [] []
  | cons {x y xs ys} : r x y → Pairwise2 r xs ys → Pairwise2 r (x :: xs) (y :: ys)

/-- `mapP` succeeds exactly if each element does. -/
theorem mapP_ok {ε α β : Type} {f : α → Res ε β} :
    ∀ {xs : List α} {ys : List β}, mapP f xs = .ok ys ↔ Pairwise2 (fun x y => f x = .ok y) xs ys
  | [], ys => by
    constructor
    · intro h; simp only [mapP, Res.ok.injEq] at h; subst h; exact .nil
    · intro h; cases h; rfl
  | x :: xs, ys => by
    simp only [mapP, Res.bind_eq_ok, Res.map_eq_ok]
    constructor
    · rintro ⟨y, hy, zs, hzs, rfl⟩
      exact .cons hy (mapP_ok.1 hzs)
    · intro h
      cases h with
      | cons hy hr => exact ⟨_, hy, _, mapP_ok.2 hr, rfl⟩

theorem Pairwise2.imp {α β : Type} {r s : α → β → Prop} (h : ∀ x y, r x y → s x y) :
    ∀ {xs ys}, Pairwise2 r xs ys → Pairwise2 s xs ys
  | _, _, .nil => .nil
  | _, _, .cons a b => .cons (h _ _ a) (b.imp h)

/-! ### C46 -/

theorem perm_of_nodup_subset : ∀ {a b : List Int}, a.Nodup → a ⊆ b → a.length = b.length → a.Perm b
  | [], b, _, _, hl => by
    have : b = [] := List.length_eq_zero_iff.1 hl.symm
    subst this; exact .nil
  | x :: a, b, hn, hs, hl => by
    have hx : x ∈ b := hs (by simp)
    have hp := List.perm_cons_erase hx
    refine List.Perm.trans ?_ hp.symm
    refine .cons x (perm_of_nodup_subset (List.nodup_cons.1 hn).2 ?_ ?_)
    · intro y hy
      have hne : y ≠ x := by
        rintro rfl; exact (List.nodup_cons.1 hn).1 hy
      exact (List.mem_erase_of_ne hne).2 (hs (by simp [hy]))
    · have := hp.length_eq
      simp at this hl
      omega

/-- Two lists of numbers without repetition in the first have the same numbers, in any order. -/
theorem matchNumbers_perm {a b : List Int} (ha : a.Nodup) :
    matchNumbers a b = true ↔ a.Perm b := by
  simp only [matchNumbers, Bool.and_eq_true, decide_eq_true_eq, List.all_eq_true,
    List.contains_iff_mem]
  constructor
  · rintro ⟨hl, hs⟩
    exact perm_of_nodup_subset ha (fun x hx => hs x hx) hl
  · intro h
    exact ⟨h.length_eq, fun x hx => h.subset hx⟩

/-- The numbers of the columns of a relation with the given names. -/
def Numbers (rel : Relation) (cids : List ColIdent) (nums : List Int) : Prop :=
  Pairwise2 (fun (cid : ColIdent) n =>
    ∃ col, rel.columns.find? (fun c => c.name = cid.name) = some col ∧ col.num = n) cids nums

theorem relColumn_ok {rel : Relation} {cid : ColIdent} {col : Column} :
    relColumn rel cid = .ok col ↔ rel.columns.find? (fun c => c.name = cid.name) = some col := by
  show _ ↔ findRelColumn rel cid.name = some col
  unfold relColumn
  cases findRelColumn rel cid.name <;> simp

theorem relColumn_err {rel : Relation} {cid : ColIdent} {e : DbErr} (h : relColumn rel cid = .err e) :
    e = .columnUnknown := by
  unfold relColumn at h
  split at h <;> simp_all

theorem numbers_mapP (rel : Relation) (cids : List ColIdent) (nums : List Int) :
    mapP (fun cid => (relColumn rel cid).map fun col => col.num) cids = .ok nums ↔
      Numbers rel cids nums := by
  rw [mapP_ok]
  constructor
  · refine Pairwise2.imp ?_
    intro cid n h
    simp only [Res.map_eq_ok] at h
    obtain ⟨col, hc, rfl⟩ := h
    exact ⟨col, relColumn_ok.1 hc, rfl⟩
  · refine Pairwise2.imp ?_
    rintro cid n ⟨col, hc, rfl⟩
    rw [relColumn_ok.2 hc]
    rfl

/-- **C46** A conflict target given by columns is accepted exactly if the columns exist and some unique
index has exactly these columns, in any order; the target is then that index.  No index may name a
column twice. -/
theorem C46_conflict_columns (rel : Relation) (cids : List ColIdent) (t : ConflictTarget)
    (hdup : ∀ i ∈ rel.indexes, i.key.Nodup) :
    (conflictColumns rel cids = .ok t →
      ∃ nums, Numbers rel cids nums ∧ ∃ i ∈ rel.indexes,
        (i.isUnique = true ∨ i.isPrimary = true) ∧ i.key.Perm nums ∧
          t = .index i.expression i.predicate) ∧
    ((∃ nums, Numbers rel cids nums ∧ ∃ i ∈ rel.indexes,
        (i.isUnique = true ∨ i.isPrimary = true) ∧ i.key.Perm nums) →
      ∃ t, conflictColumns rel cids = .ok t) := by
  constructor
  · intro h
    simp only [conflictColumns, Res.bind_eq_ok] at h
    obtain ⟨nums, hn, h⟩ := h
    refine ⟨nums, (numbers_mapP ..).1 hn, ?_⟩
    split at h
    · rename_i i hi
      cases h
      have hm := List.mem_of_find?_eq_some hi
      have hp := List.find?_some hi
      simp only [Bool.and_eq_true, Index.unique, Bool.or_eq_true] at hp
      exact ⟨i, hm, hp.2, (matchNumbers_perm (hdup i hm)).1 hp.1, rfl⟩
    · split at h <;> cases h
  · rintro ⟨nums, hn, i, hi, hu, hp⟩
    have hm : (matchNumbers i.key nums && i.unique) = true := by
      simp [Index.unique, (matchNumbers_perm (hdup i hi)).2 hp, hu]
    have hn' := (numbers_mapP ..).2 hn
    unfold conflictColumns
    rw [hn', Res.bind_ok]
    cases hf : rel.indexes.find? fun i => matchNumbers i.key nums && i.unique with
    | none => exact absurd hm (by simpa using List.find?_eq_none.1 hf i hi)
    | some j => exact ⟨_, rfl⟩

/-- Why a conflict target given by columns is refused. -/
theorem C46_refused (rel : Relation) (cids : List ColIdent) (hdup : ∀ i ∈ rel.indexes, i.key.Nodup) :
    (conflictColumns rel cids = .err .onConflictIndexColumnsUnknown →
      ∃ nums, Numbers rel cids nums ∧ ∀ i ∈ rel.indexes, ¬ i.key.Perm nums) ∧
    (conflictColumns rel cids = .err .onConflictIndexColumnsNotUnique →
      ∃ nums, Numbers rel cids nums ∧ (∃ i ∈ rel.indexes, i.key.Perm nums) ∧
        ∀ i ∈ rel.indexes, i.key.Perm nums → i.isUnique = false ∧ i.isPrimary = false) := by
  have main : ∀ e, e ≠ DbErr.columnUnknown → conflictColumns rel cids = .err e →
      ∃ nums, Numbers rel cids nums ∧
        (∀ i ∈ rel.indexes, i.key.Perm nums → i.isUnique = false ∧ i.isPrimary = false) ∧
        (e = .onConflictIndexColumnsUnknown ∧ (∀ i ∈ rel.indexes, ¬ i.key.Perm nums) ∨
         e = .onConflictIndexColumnsNotUnique ∧ ∃ i ∈ rel.indexes, i.key.Perm nums) := by
    intro e he h
    unfold conflictColumns at h
    revert h
    generalize hm : mapP _ cids = m
    intro h
    match m, hm with
    | .panic, _ => cases h
    | .err e', hm =>
      simp only [Res.bind_err, Res.err.injEq] at h
      subst h
      have : ∀ (f : ColIdent → P Int) (hf : ∀ c e, f c = .err e → e = .columnUnknown) (l : List ColIdent),
          mapP f l = .err e' → e' = .columnUnknown := by
        intro f hf l
        induction l with
        | nil => intro h; cases h
        | cons c cs ih =>
          intro h
          simp only [mapP] at h
          cases hc : f c with
          | ok n =>
            rw [hc, Res.bind_ok] at h
            cases hr : mapP f cs with
            | ok r => rw [hr] at h; cases h
            | err e2 => rw [hr] at h; simp at h; subst h; exact ih hr
            | panic => rw [hr] at h; cases h
          | err e2 => rw [hc] at h; simp at h; subst h; exact hf _ _ hc
          | panic => rw [hc] at h; cases h
      exact absurd (this _ (by
        intro c e h
        cases hc : relColumn rel c with
        | ok a => rw [hc] at h; cases h
        | err e2 => rw [hc] at h; simp at h; subst h; exact relColumn_err hc
        | panic => rw [hc] at h; cases h) _ hm) he
    | .ok nums, hm =>
      simp only [Res.bind_ok] at h
      refine ⟨nums, (numbers_mapP ..).1 hm, ?_⟩
      split at h
      · cases h
      · rename_i hn
        have hno : ∀ i ∈ rel.indexes, i.key.Perm nums → i.isUnique = false ∧ i.isPrimary = false := by
          intro i hi hp
          have := List.find?_eq_none.1 hn i hi
          simpa [(matchNumbers_perm (hdup i hi)).2 hp, Index.unique] using this
        refine ⟨hno, ?_⟩
        split at h
        · rename_i ha
          cases h
          simp only [List.any_eq_true] at ha
          obtain ⟨i, hi, hp⟩ := ha
          exact .inr ⟨rfl, i, hi, (matchNumbers_perm (hdup i hi)).1 hp⟩
        · rename_i ha
          cases h
          refine .inl ⟨rfl, fun i hi hp => ha ?_⟩
          simp only [List.any_eq_true]
          exact ⟨i, hi, (matchNumbers_perm (hdup i hi)).2 hp⟩
  constructor
  · intro h
    obtain ⟨nums, hn, _, h⟩ := main _ (by decide) h
    rcases h with ⟨_, h⟩ | ⟨h, _⟩
    · exact ⟨nums, hn, h⟩
    · cases h
  · intro h
    obtain ⟨nums, hn, hno, h⟩ := main _ (by decide) h
    rcases h with ⟨h, _⟩ | ⟨_, h⟩
    · cases h
    · exact ⟨nums, hn, h, hno⟩

def intTy : PgType := { oid := Oid.int4, nameFmt := b!"integer", category := 'N' }
def textTy : PgType := { oid := Oid.text, nameFmt := b!"text", category := 'S' }
def colA : Column := { num := 1, name := b!"a", type := intTy }
def colB : Column := { num := 2, name := b!"b", type := textTy }

/-- The relation `t (a, b)` with one unique index. -/
def relAB (key : List Int) (expr : Bytes) : Relation :=
  { columns := [colA, colB]
    indexes := [{ name := b!"t_idx", isUnique := true, key := key, expression := expr }] }

example : conflictColumns (relAB [2, 1] b!"b, a") [{ name := b!"a" }, { name := b!"b" }] =
    .ok (.index b!"b, a" []) := by decide +kernel
example : conflictColumns (relAB [2, 1] b!"b, a") [{ name := b!"a" }] =
    .err .onConflictIndexColumnsUnknown := by decide +kernel

/-- Only one inclusion is checked: the index on `(a, a)` is taken for the target `(a, b)`. -/
theorem C46_not_repeated :
    conflictColumns (relAB [1, 1] b!"a, a") [{ name := b!"a" }, { name := b!"b" }] =
      .ok (.index b!"a, a" []) ∧ ¬ [(1 : Int), 1].Perm [1, 2] := by
  refine ⟨by decide +kernel, by decide⟩

/-- The numbers of an index include the columns that are merely stored in it: the unique index on `(a)`
that also stores `b` is refused for the target `(a)`, and accepted for `(a, b)`, which then becomes the
target `(a)`. -/
theorem C46_not_included :
    conflictColumns (relAB [1, 2] b!"a") [{ name := b!"a" }] = .err .onConflictIndexColumnsUnknown ∧
    conflictColumns (relAB [1, 2] b!"a") [{ name := b!"a" }, { name := b!"b" }] =
      .ok (.index b!"a" []) := by
  decide +kernel

/-! ### C47 -/

/-- The content of a quoted text; an escaped quote is not its end. -/
inductive QText : Bytes → Prop where
  | nil : QText []
  | char {c q} : c ≠ '\'' → QText q → QText (c :: q)
  | esc {q} : QText q → q ≠ [] → QText ('\'' :: '\'' :: q)

/-- A text with balanced parentheses outside quoted texts. -/
inductive Body : Bytes → Prop where
  | nil : Body []
  | plain {c s} : c ≠ '(' → c ≠ ')' → c ≠ '\'' → Body s → Body (c :: s)
  | group {b s} : Body b → Body s → Body ('(' :: (b ++ ')' :: s))
  | quoted {q s} : QText q → s.head? ≠ some '\'' → Body s → Body ('\'' :: (q ++ '\'' :: s))

theorem map_map {ε α β γ : Type} (f : α → β) (g : β → γ) (r : Res ε α) :
    (r.map f).map g = r.map (fun x => g (f x)) := by cases r <;> rfl

theorem map_id' {ε α : Type} (r : Res ε α) : r.map (fun x => x) = r := by cases r <;> rfl

/-- One step of the loop when something follows. -/
theorem ixLoop_next {st st' : IxSt} {c : Char} {cs : Bytes} (h : ixStep st c cs = .next st')
    (hne : cs ≠ []) : ixLoop st (c :: cs) = (ixLoop st' cs).map (c :: ·) := by
  have : cs.length ≠ 0 := fun h => hne (List.length_eq_zero_iff.1 h)
  simp [ixLoop, h, this]

/-- Inside a quoted text up to its end. -/
theorem ixLoop_quoted {q : Bytes} (hq : QText q) : ∀ (n : Nat) (d : Char) (t : Bytes), d ≠ '\'' →
    ixLoop { nested := n, quoted := true } (q ++ '\'' :: d :: t) =
      (ixLoop { nested := n } (d :: t)).map (fun r => q ++ '\'' :: r) := by
  induction hq with
  | nil =>
    intro n d t hd
    rw [List.nil_append, ixLoop_next (st' := { nested := n }) (by simp [ixStep, hd]) (by simp)]
    rfl
  | char hc _ ih =>
    intro n d t hd
    rw [List.cons_append, ixLoop_next (st' := { nested := n, quoted := true }) (by simp [ixStep, hc])
      (by simp), ih n d t hd, map_map]
    rfl
  | @esc q hq hne ih =>
    intro n d t hd
    rw [List.cons_append, List.cons_append,
      ixLoop_next (st' := { nested := n, quoted := true, escaped := true }) (by simp [ixStep]) (by simp)]
    cases hq with
    | nil => exact absurd rfl hne
    | @char c q' hc hq' =>
      rw [ixLoop_next (st' := { nested := n, quoted := true }) (by simp [ixStep, hc]) (by simp),
        ih n d t hd, map_map, map_map]
      rfl
    | @esc q' hq' hne' =>
      have e : ixLoop { nested := n, quoted := true, escaped := true }
            (('\'' :: '\'' :: q') ++ '\'' :: d :: t) =
          ixLoop { nested := n, quoted := true } (('\'' :: '\'' :: q') ++ '\'' :: d :: t) := by
        rw [List.cons_append, List.cons_append,
          ixLoop_next (st := { nested := n, quoted := true, escaped := true })
            (st' := { nested := n, quoted := true, escaped := true }) (by simp [ixStep]) (by simp),
          ixLoop_next (st := { nested := n, quoted := true })
            (st' := { nested := n, quoted := true, escaped := true }) (by simp [ixStep]) (by simp)]
      rw [ixLoop_next (st' := { nested := n, quoted := true, escaped := true }) (by simp [ixStep])
        (by simp), e, ih n d t hd, map_map, map_map]
      rfl

/-- Through a balanced text. -/
theorem ixLoop_body {b : Bytes} (hb : Body b) : ∀ (n : Nat) (d : Char) (t : Bytes), d ≠ '\'' →
    ixLoop { nested := n } (b ++ d :: t) = (ixLoop { nested := n } (d :: t)).map (b ++ ·) := by
  induction hb with
  | nil => intro n d t _; exact (map_id' _).symm
  | @plain c s h1 h2 h3 _ ih =>
    intro n d t hd
    rw [List.cons_append, ixLoop_next (st' := { nested := n }) (by simp [ixStep, h1, h2, h3]) (by simp),
      ih n d t hd, map_map]
    rfl
  | @group b s _ _ ihb ihs =>
    intro n d t hd
    rw [List.cons_append, List.append_assoc, List.cons_append,
      ixLoop_next (st' := { nested := n + 1 }) (by simp [ixStep]) (by simp),
      ihb (n + 1) ')' _ (by decide),
      ixLoop_next (st' := { nested := n }) (by simp [ixStep]) (by simp), ihs n d t hd, map_map,
      map_map, map_map]
    congr 1
    funext r
    simp
  | @quoted q s hq hs _ ih =>
    intro n d t hd
    have : ∃ d' t', s ++ d :: t = d' :: t' ∧ d' ≠ '\'' := by
      cases s with
      | nil => exact ⟨d, t, rfl, hd⟩
      | cons x xs => exact ⟨x, xs ++ d :: t, rfl, by simpa using hs⟩
    obtain ⟨d', t', e, hd'⟩ := this
    rw [List.cons_append, List.append_assoc, List.cons_append, e,
      ixLoop_next (st' := { nested := n, quoted := true }) (by simp [ixStep]) (by simp),
      ixLoop_quoted hq n d' t' hd', ← e, ih n d t hd, map_map, map_map]
    congr 1
    funext r
    simp

/-- The word that introduces the method, in any case, between blanks. -/
def UsingAt (s : Bytes) : Prop :=
  ∃ x w y r, s = x :: (w ++ y :: r) ∧ isRxSpace x = true ∧ isRxSpace y = true ∧
    lower w = b!"using"

theorem usingHere_some {x y : Char} {w r : Bytes} (hx : isRxSpace x = true) (hy : isRxSpace y = true)
    (hw : lower w = b!"using") : usingHere (x :: (w ++ y :: r)) = some r := by
  have hl : w.length = 5 := by
    have := congrArg List.length hw
    simpa [lower] using this
  match w, hl with
  | [a, b, c, d, e], _ =>
    simp [usingHere, hx, hy] at *
    exact hw

theorem usingHere_none {s : Bytes} (h : ¬ UsingAt s) : usingHere s = none := by
  unfold usingHere
  split
  · rename_i hc
    exfalso
    apply h
    simp only [Bool.and_eq_true, decide_eq_true_eq] at hc
    obtain ⟨⟨h1, h2⟩, h3⟩ := hc
    cases s with
    | nil => simp at h1
    | cons x t =>
      simp at h1 h2 h3
      have hl : (t.take 5).length = 5 := by
        have := congrArg List.length h2
        simpa [lower] using this
      obtain ⟨y, hy, hs⟩ : ∃ y, (t.drop 5).head? = some y ∧ isRxSpace y = true := by
        cases hd : (t.drop 5).head? with
        | none =>
          rw [List.head?_drop] at hd
          simp [hd] at h3
        | some y =>
          rw [List.head?_drop] at hd
          exact ⟨y, rfl, by simpa [hd] using h3⟩
      cases hd : t.drop 5 with
      | nil => simp [hd] at hy
      | cons y' r =>
        simp [hd] at hy
        subst hy
        exact ⟨x, t.take 5, y', r, by rw [← hd, List.take_append_drop], h1, hs, h2⟩
  · rfl

/-- No earlier place of the text reads `using` between blanks. -/
theorem afterUsing_eq {x y : Char} {w r : Bytes} (all : Bytes) (hx : isRxSpace x = true)
    (hy : isRxSpace y = true) (hw : lower w = b!"using") :
    ∀ (pre : Bytes), (∀ a s, pre = a ++ s → s ≠ [] → ¬ UsingAt (s ++ x :: (w ++ y :: r))) →
      afterUsing all (pre ++ x :: (w ++ y :: r)) = r
  | [], _ => by
    simp [afterUsing, usingHere_some hx hy hw]
  | c :: pre, h => by
    have h0 := usingHere_none (h [] (c :: pre) rfl (by simp))
    rw [List.cons_append] at h0 ⊢
    simp only [afterUsing, h0]
    exact afterUsing_eq all hx hy hw pre fun a s e hs => h (c :: a) s (by simp [e]) hs

theorem firstSplit_append {c : Char} : ∀ {m r : Bytes}, c ∉ m →
    firstSplit c (m ++ c :: r) = some (m, r)
  | [], r, _ => by simp [firstSplit]
  | d :: m, r, h => by
    have hd : d ≠ c := by rintro rfl; simp at h
    have := firstSplit_append (r := r) (fun hm => h (List.mem_cons_of_mem _ hm))
    simp [firstSplit, hd, this]

/-- **C47** From the definition of an index the text between the parentheses after `USING method` is
extracted, whatever is nested or quoted in it, if no quoted text ends in an escaped quote, and `using`
does not occur between blanks before. -/
theorem C47_index_expr (pre w method body post : Bytes) (x y : Char) (hx : isRxSpace x = true)
    (hy : isRxSpace y = true) (hw : lower w = b!"using")
    (hpre : ∀ a s, pre = a ++ s → s ≠ [] →
      ¬ UsingAt (s ++ x :: (w ++ y :: (method ++ '(' :: (body ++ ')' :: post)))))
    (hm : '(' ∉ method) (hb : Body body) :
    parseIndexExpr (pre ++ x :: (w ++ y :: (method ++ '(' :: (body ++ ')' :: post)))) = .ok body := by
  unfold parseIndexExpr
  rw [afterUsing_eq _ hx hy hw pre hpre, firstSplit_append hm]
  show ixLoop {} (body ++ ')' :: post) = _
  rw [ixLoop_body hb 0 ')' post (by decide)]
  simp [ixLoop, ixStep]

/-- The definitions that PostgreSQL writes: the words before `USING` are separated by single blanks,
and none of them is `using`. -/
theorem C47_plain_prefix (pre : Bytes) (x : Char) (rest : Bytes)
    (h : ∀ a w b x' y', pre ++ [x] = a ++ x' :: (w ++ y' :: b) → isRxSpace x' = true →
      isRxSpace y' = true → lower w ≠ b!"using")
    (hx : isRxSpace x = true) (a s : Bytes) (e : pre = a ++ s) (hs : s ≠ []) :
    ¬ UsingAt (s ++ x :: rest) := by
  rintro ⟨x', w, y', r, e2, hx', hy', hw⟩
  have hl : w.length = 5 := by
    have := congrArg List.length hw
    simpa [lower] using this
  have hnosp : ∀ c ∈ w, isRxSpace c = false := by
    have : ∀ c : Char, isRxSpace c = true → lowerC c = c := by
      intro c hc
      simp only [isRxSpace, Bool.or_eq_true, decide_eq_true_eq] at hc
      rcases hc with (((rfl | rfl) | rfl) | rfl) | rfl <;> decide
    intro c hc
    cases hsp : isRxSpace c with
    | false => rfl
    | true =>
      have hmem : lowerC c ∈ lower w := by simp only [lower, List.mem_map]; exact ⟨c, hc, rfl⟩
      rw [this c hsp, hw] at hmem
      simp only [List.mem_cons, List.not_mem_nil, or_false] at hmem
      rcases hmem with rfl | rfl | rfl | rfl | rfl <;> simp [isRxSpace] at hsp
  -- the blank `x` is not inside the word, so the match ends at it or before
  cases s with
  | nil => exact hs rfl
  | cons c s =>
    simp only [List.cons_append, List.cons.injEq] at e2
    obtain ⟨rfl, e2⟩ := e2
    rcases List.append_eq_append_iff.1 e2 with ⟨u, hu1, hu2⟩ | ⟨u, hu1, hu2⟩
    · -- `s ++ u = w`
      cases u with
      | nil =>
        simp at hu1 hu2
        subst hu1
        exact h a w [] c x (by simp [e]) hx' hx hw
      | cons z u =>
        simp only [List.cons_append, List.cons.injEq] at hu2
        have hz : x ∈ w := by rw [hu1, hu2.1]; simp
        rw [hnosp x hz] at hx
        cases hx
    · cases u with
      | nil =>
        simp at hu1 hu2
        subst hu1
        exact h a _ [] c x (by simp [e]) hx' hx hw
      | cons z u =>
        simp only [List.cons_append, List.cons.injEq] at hu2
        obtain ⟨rfl, hu2⟩ := hu2
        exact h a w (u ++ [x]) c y' (by simp [e, hu1]) hx' hy' hw

example : parseIndexExpr
    b!"CREATE UNIQUE INDEX i ON public.t USING btree (a, lower((b || ')'::text)), 'it''s (') WHERE (c > 0)" =
    .ok b!"a, lower((b || ')'::text)), 'it''s ('" := by decide +kernel
example : Body b!"a, lower((b || ')'::text)), 'it''s ('" := by
  repeat (first
    | exact .nil
    | refine .plain (by decide) (by decide) (by decide) ?_)
  refine Body.group (b := b!"(b || ')'::text)") (s := b!", 'it''s ('") ?_ ?_
  · refine Body.group (b := b!"b || ')'::text") (s := []) ?_ .nil
    repeat (first
      | exact .nil
      | refine .plain (by decide) (by decide) (by decide) ?_)
    refine Body.quoted (q := b!")") (s := b!"::text") (.char (by decide) .nil) (by decide) ?_
    repeat (first
      | exact .nil
      | refine .plain (by decide) (by decide) (by decide) ?_)
  · repeat (first
      | exact .nil
      | refine .plain (by decide) (by decide) (by decide) ?_)
    refine Body.quoted (q := b!"it''s (") (s := []) ?_ (by decide) .nil
    repeat (first
      | exact .nil
      | refine .char (by decide) ?_
      | refine .esc ?_ (by decide))

/-- A quoted text that ends in an escaped quote is not seen to end: the rest of the definition up to its
last character becomes part of the expression, or the program crashes. -/
theorem C47_not_escaped_end :
    parseIndexExpr b!"CREATE INDEX i ON t USING btree ((a || '''')) WHERE (c > 0)" =
      .ok b!"(a || '''')) WHERE (c > 0" ∧
    parseIndexExpr b!"CREATE INDEX i ON t USING btree ((a || '''')) WHERE b = ''" = .panic := by
  decide +kernel

/-- Parentheses in quoted identifiers are counted. -/
theorem C47_not_identifier :
    parseIndexExpr b!"CREATE INDEX i ON t USING btree (\"a)b\", c)" = .ok b!"\"a" := by
  decide +kernel

end Verif.Postgres
