import Verif.Generator.PropsDb5
import Verif.Generator.PropsDb3
import Verif.Generator.PropsOutput2
import Verif.Generator.PropsFiltered2

/- C81: examples and exceptions. -/
namespace Verif.Generator
open Verif.Analysis Verif.Postgres

/-! ### A database -/

/-- The number that a text is. -/
def textNum (b : Bytes) : Nat := b.foldl (fun n c => 10 * n + (c.toNat - 48)) 0

/-- Values are texts, and a literal is one, without its quotes.  The tables are those of `shopCat`, with 99
as the next id. -/
def shop : Server Bytes where
  lit b := some (if b.head? = some '\'' then (b.drop 1).dropLast else b)
  cast _ v := v
  call _ v := v
  op o a b :=
    match a, b with
    | some x, some y =>
      if o = b!"=" then some (decide (x = y)) else if o = b!">" then some (decide (textNum y < textNum x)) else none
    | _, _ => none
  truth v := v.map fun b => decide (b = b!"true")
  elems _ := []
  has t n := (t = ([], b!"users") && decide (n ∈ [b!"id", b!"name", b!"age", b!"tags"])) ||
    (t = ([], b!"posts") && decide (n ∈ [b!"id", b!"user_id"]))
  default t n :=
    if n = b!"id" then some b!"99" else if t.2 = b!"users" ∧ n = b!"age" then some b!"18" else none
  le x y := decide (textNum x ≤ textNum y)
  nat := textNum
  ofNat n := Nat.toDigits 10 n
  ofBool b := if b then b!"true" else b!"false"
  clash _ _ a b := a b!"id" = b b!"id"

def userRow (id : Bytes) (name : Option Bytes) (age : Bytes) : Row Bytes := fun n =>
  if n = b!"id" then some id else if n = b!"name" then name else if n = b!"age" then some age else none

/-- Bob is 7th and 40, Ann is 5th and 20, and the second, who is 30, has no name; the posts are by 7 and 5. -/
def shopTables : Tables Bytes := fun t =>
  if t.2 = b!"users" then
    [userRow b!"7" (some b!"bob") b!"40", userRow b!"5" (some b!"ann") b!"20", userRow b!"2" none b!"30"]
  else [fun n => if n = b!"id" then some b!"1" else if n = b!"user_id" then some b!"7" else none,
        fun n => if n = b!"id" then some b!"2" else if n = b!"user_id" then some b!"5" else none]

/-- The id, name and age of rows. -/
def cells (l : List (Row Bytes)) : List (List (Option Bytes)) := l.map fun r => [r b!"id", r b!"name", r b!"age"]

def users : Bytes × Bytes := ([], b!"users")

/-- `q.Where.Age` is 25, `q.Where.Id` is 5, the record has the id and the name. -/
def shopFields (id name : Bytes) : Fields Bytes := fun p =>
  if p = [b!"q", b!"Where", b!"Age"] then some b!"25"
  else if p = [b!"q", b!"Where", b!"Id"] then some b!"5"
  else if p = [b!"q", b!"Users", b!"Id"] then some id
  else if p = [b!"q", b!"Users", b!"Name"] then some name
  else none

def plainCheck (q : Query) (t : TargetInfo) : Bool :=
  !isInsertOrUpdateSlice q && inUsesFields q &&
    decide (∀ w ∈ t.writes, ∀ p ∈ t.pkeys, w.idx = p.idx → canUseDefault q w.field = false)

def toldCheck (q : Query) : Bool :=
  (q.wher.all fun w => decide (w.items.length = 0) || (wfFrom true w.items && renderedAll w.items)) &&
    (q.join.all fun j => j.directives.all fun d => renderedAll (d.items.map JItem.asItem))

theorem told_of {q : Query} (h : toldCheck q = true) : AsTold q := by
  unfold toldCheck at h
  simp only [Bool.and_eq_true] at h
  constructor
  · intro w hw hne
    have h1 := h.1
    rw [hw] at h1
    simp only [Option.all_some, Bool.or_eq_true, decide_eq_true_eq, Bool.and_eq_true] at h1
    rcases h1 with h1 | h1
    · exact absurd (List.length_eq_zero_iff.1 h1) hne
    · exact ⟨(wfFrom_sound _).1 h1.1, h1.2⟩
  · intro j hj d hd
    have h2 := h.2
    rw [hj] at h2
    simp only [Option.all_some, List.all_eq_true] at h2
    exact h2 d hd

theorem told_case {cat : Catalog} {n : Bytes} {fs : List Analysis.Field} {P : Query → TargetInfo → Code → Bool}
    (h : (pipeline env0 cat n fs).any (fun x => x.2.2.any fun c =>
      plainCheck x.1 x.2.1 && toldCheck x.1 && P x.1 x.2.1 c) = true) :
    ∃ q t c, Plain cat q t ∧ AsTold q ∧ generate q t = some c ∧ P q t c = true := by
  obtain ⟨q, t, c, hb, hc, hp⟩ := code_of (P := fun q t c => plainCheck q t && toldCheck q && P q t c) h
  simp only [Bool.and_eq_true] at hp
  obtain ⟨⟨h1, h2⟩, h3⟩ := hp
  simp only [plainCheck, Bool.and_eq_true, Bool.not_eq_true', decide_eq_true_eq] at h1
  exact ⟨q, t, c, { toBuilt := hb, one := h1.1.1, fields := h1.1.2, keys := fun _ => h1.2 }, told_of h2, hc, h3⟩

/-! ### Examples -/

def ageFld : Analysis.Field := sqlFld b!"Age" [b!"u.age >"] Analysis.intTy

/-- The users older than 25, by id: the name of the second is read as the empty text. -/
theorem C81_example_select : ∃ q t c, Plain shopCat q t ∧ AsTold q ∧ generate q t = some c ∧ q.kind = .select ∧
    shop.Runs c (shopFields [] []) shopTables shopTables
      [[some b!"2", some []], [some b!"7", some b!"bob"]] := by
  obtain ⟨q, t, c, h, hr, hc, hp⟩ := told_case (cat := shopCat) (n := b!"SelectUsers")
    (fs := [relFld (.slice userTy), whereOf [ageFld], dirFld b!"OrderBy" [b!"u.id"]])
    (P := fun q t _ => decide (q.kind = .select ∧
      ((shop.askedRows (shopFields [] []) shopTables q).reverse.Pairwise fun a b => shop.askedOrder q a b = true) ∧
      (window (shop.askedLimit (shopFields [] []) q) (shop.askedOffset (shopFields [] []) q)
        (shop.askedRows (shopFields [] []) shopTables q).reverse).map (fun j => t.reads.map (shop.readField j)) =
        [[some b!"2", some []], [some b!"7", some b!"bob"]])) (by decide +kernel)
  obtain ⟨h1, h2, h3⟩ := of_decide_eq_true hp
  exact ⟨q, t, c, h, hr, hc, h1, (C81_select_partial shop h hr h1 hc _ _ _ _).2
    ⟨rfl, _, List.reverse_perm _, h2, h3.symm⟩⟩

/-- The users with their posts: the one without a post comes with NULL. -/
theorem C81_example_join : ∃ q t c, Plain shopCat q t ∧ AsTold q ∧ generate q t = some c ∧ q.kind = .select ∧
    (shop.askedRows (shopFields [] []) shopTables q).map
      (fun j => [shop.col j ⟨b!"u", b!"id"⟩, shop.col j ⟨b!"p", b!"id"⟩]) =
      [[some b!"7", some b!"1"], [some b!"5", some b!"2"], [some b!"2", none]] := by
  obtain ⟨q, t, c, h, hr, hc, hp⟩ := told_case (cat := shopCat) (n := b!"SelectUsers")
    (fs := [relFld (.slice userTy), joinFld [b!"posts:p", b!"p.user_id = u.id"]])
    (P := fun q _ _ => decide (q.kind = .select ∧
      (shop.askedRows (shopFields [] []) shopTables q).map
        (fun j => [shop.col j ⟨b!"u", b!"id"⟩, shop.col j ⟨b!"p", b!"id"⟩]) =
        [[some b!"7", some b!"1"], [some b!"5", some b!"2"], [some b!"2", none]])) (by decide +kernel)
  obtain ⟨h1, h2⟩ := of_decide_eq_true hp
  exact ⟨q, t, c, h, hr, hc, h1, h2⟩

theorem C81_example_count : ∃ q t c, Plain shopCat q t ∧ AsTold q ∧ generate q t = some c ∧ q.kind = .selectCount ∧
    shop.Runs c (shopFields [] []) shopTables shopTables [[some b!"2"]] := by
  obtain ⟨q, t, c, h, hr, hc, hp⟩ := told_case (cat := shopCat) (n := b!"SelectUsers")
    (fs := [usersRel b!"Count" Analysis.intTy, whereOf [ageFld]])
    (P := fun q _ _ => decide (q.kind = .selectCount ∧ q.filter.isNone = true ∧ (q.orderBy.getD []).length = 0 ∧
      (shop.askedOffset (shopFields [] []) q).getD 0 = 0 ∧
      some (shop.ofNat (shop.askedRows (shopFields [] []) shopTables q).length) = some b!"2")) (by decide +kernel)
  obtain ⟨h1, h2, h3, h4, h5⟩ := of_decide_eq_true hp
  refine ⟨q, t, c, h, hr, hc, h1, (C81_count_partial shop h hr h1 (Option.isNone_iff_eq_none.1 h2) hc _ _ _ _).2
    ⟨rfl, List.length_eq_zero_iff.1 h3, ?_⟩⟩
  rw [if_pos h4, h5]

theorem C81_example_exists : ∃ q t c, Plain shopCat q t ∧ AsTold q ∧ generate q t = some c ∧ q.kind = .selectExists ∧
    shop.Runs c (shopFields [] []) shopTables shopTables [[some b!"true"]] := by
  obtain ⟨q, t, c, h, hr, hc, hp⟩ := told_case (cat := shopCat) (n := b!"SelectUsers")
    (fs := [usersRel b!"Exists" (.basic .bool b!"bool"), whereOf [ageFld]])
    (P := fun q _ _ => decide (q.kind = .selectExists ∧ q.filter.isNone = true ∧
      (decide ((shop.askedOffset (shopFields [] []) q).getD 0 < (shop.askedRows (shopFields [] []) shopTables q).length) &&
          decide (shop.askedLimit (shopFields [] []) q ≠ some 0)) = true)) (by decide +kernel)
  obtain ⟨h1, h2, h3⟩ := of_decide_eq_true hp
  refine ⟨q, t, c, h, hr, hc, h1, (C81_exists_partial shop h hr (.inl h1) (Option.isNone_iff_eq_none.1 h2) hc _ _ _ _).2
    ⟨rfl, ?_⟩⟩
  simp only [h3]
  rw [if_pos h1]
  rfl

/-- A user without name is inserted: the name is NULL, the age is the default. -/
theorem C81_example_insert : ∃ q t c, Plain shopCat q t ∧ generate q t = some c ∧ q.kind = .insert ∧
    ∃ T', shop.Runs c (shopFields b!"8" []) shopTables T' [[some b!"8", some []]] ∧
      cells (T' users) = cells (shopTables users) ++ [[some b!"8", none, some b!"18"]] := by
  obtain ⟨q, t, c, h, _, hc, hp⟩ := told_case (cat := shopCat) (n := b!"InsertUser")
    (fs := [relFld (.ptr userTy), returnFld])
    (P := fun q t _ => decide (q.kind = .insert ∧ t.conflict.isNone = true ∧ tableOf q.rel.id = users ∧
      cells [shop.recordRow (fun w => shopFields b!"8" [] (recordPath q w.field)) q t] = [[some b!"8", none, some b!"18"]] ∧
      t.reads.map (shop.readField [(q.rel.id, shop.recordRow (fun w => shopFields b!"8" [] (recordPath q w.field)) q t)]) =
        [some b!"8", some []])) (by decide +kernel)
  obtain ⟨h1, h2, h3, h4, h5⟩ := of_decide_eq_true hp
  rw [Option.isNone_iff_eq_none] at h2
  refine ⟨q, t, c, h, hc, h1, setTable shopTables users (shopTables users ++
    [shop.recordRow (fun w => shopFields b!"8" [] (recordPath q w.field)) q t]),
    (C81_insert shop h h1 hc _ _ _ _).2 ?_, ?_⟩
  · simp only [h2, h3, List.map_cons, List.map_nil, h5, and_self]
  · rw [← h4]
    simp [setTable, cells]

/-- `shopCat` with the index of the primary key. -/
def keyedCat : Catalog :=
  { shopCat with rels := shopCat.rels.map fun x => (x.1, { x.2 with
      indexes := [{ name := x.1 ++ b!"_pkey", isUnique := true, isPrimary := true, key := [1]
                    definition := b!"CREATE UNIQUE INDEX pkey ON t USING btree (id)" }] }) }

def conflictFld (l : List Analysis.Field) : Analysis.Field := ({ name := b!"OnConflict" }, .struct (.ofList l))

/-- A user is inserted, or the name of the one with that id is changed; another age is kept. -/
theorem C81_example_upsert : ∃ q t c, Plain keyedCat q t ∧ generate q t = some c ∧ q.kind = .insert ∧
    ∃ T', shop.Runs c (shopFields b!"5" b!"eve") shopTables T' [[some b!"5", some b!"eve"]] ∧
      cells (T' users) = [[some b!"7", some b!"bob", some b!"40"], [some b!"5", some b!"eve", some b!"20"],
        [some b!"2", none, some b!"30"]] := by
  obtain ⟨q, t, c, h, _, hc, hp⟩ := told_case (cat := keyedCat) (n := b!"InsertUser")
    (fs := [relFld (.ptr userTy), returnFld, conflictFld [dirFld b!"Column" [b!"id"], dirFld b!"Update" [b!"name"]]])
    (P := fun q t _ => decide (q.kind = .insert ∧ tableOf q.rel.id = users ∧
      (match t.conflict with
       | some k =>
         match (shopTables users).find? (shop.clash users k.target
            (shop.recordRow (fun w => shopFields b!"5" b!"eve" (recordPath q w.field)) q t)) with
         | some old => decide (k.update.length ≠ 0 ∧
            cells ((shopTables users).map fun r => if shop.clash users k.target
              (shop.recordRow (fun w => shopFields b!"5" b!"eve" (recordPath q w.field)) q t) r then
              (fun n => if n ∈ k.update.map (·.name) then
                (shop.recordRow (fun w => shopFields b!"5" b!"eve" (recordPath q w.field)) q t) n else r n) else r) =
              [[some b!"7", some b!"bob", some b!"40"], [some b!"5", some b!"eve", some b!"20"],
                [some b!"2", none, some b!"30"]] ∧
            t.reads.map (shop.readField [(q.rel.id, fun n => if n ∈ k.update.map (·.name) then
              (shop.recordRow (fun w => shopFields b!"5" b!"eve" (recordPath q w.field)) q t) n else old n)]) =
              [some b!"5", some b!"eve"])
         | none => false
       | none => false) = true)) (by decide +kernel)
  obtain ⟨h1, h2, h3⟩ := of_decide_eq_true hp
  have hT := fun T' => C81_insert shop h h1 hc (shopFields b!"5" b!"eve") shopTables T' [[some b!"5", some b!"eve"]]
  simp only [h2] at hT
  rcases hk : t.conflict with _ | k
  · rw [hk] at h3; cases h3
  · rw [hk] at h3
    simp only [hk] at hT
    simp only at h3
    rcases ho : (shopTables users).find? (shop.clash users k.target
      (shop.recordRow (fun w => shopFields b!"5" b!"eve" (recordPath q w.field)) q t)) with _ | old
    · rw [ho] at h3; cases h3
    · rw [ho] at h3
      simp only [ho] at hT
      obtain ⟨h4, h5, h6⟩ := of_decide_eq_true h3
      have h4' : k.update ≠ [] := fun e => h4 (by rw [e]; rfl)
      simp only [if_neg h4'] at hT
      refine ⟨q, t, c, h, hc, h1, _, (hT _).2 ⟨rfl, ?_⟩, ?_⟩
      · rw [List.map_cons, List.map_nil, h6]
      · rw [← h5]
        simp [setTable]

/-- The user with the id of the record gets its name, and keeps the age. -/
theorem C81_example_update : ∃ q t c, Plain shopCat q t ∧ AsTold q ∧ generate q t = some c ∧ q.kind = .update ∧
    q.hasWhere = false ∧
    ∃ T', shop.Runs c (shopFields b!"5" b!"eve") shopTables T' [[some b!"5", some b!"eve"]] ∧
      cells (T' users) = [[some b!"7", some b!"bob", some b!"40"], [some b!"5", some b!"eve", some b!"20"],
        [some b!"2", none, some b!"30"]] := by
  obtain ⟨q, t, c, h, hr, hc, hp⟩ := told_case (cat := shopCat) (n := b!"UpdateUser")
    (fs := [relFld (.ptr userTy), returnFld])
    (P := fun q t _ => decide (q.kind = .update ∧ q.filter.isNone = true ∧ t.pkeys.length ≠ 0 ∧ q.join.isNone = true ∧
      q.hasWhere = false ∧ tableOf q.rel.id = users ∧
      cells ((shopTables users).map fun r => if shop.askedTarget (shopFields b!"5" b!"eve") q t [(q.rel.id, r)] then
        shop.recordOver (fun w => shopFields b!"5" b!"eve" (recordPath q w.field)) q t r else r) =
        [[some b!"7", some b!"bob", some b!"40"], [some b!"5", some b!"eve", some b!"20"],
          [some b!"2", none, some b!"30"]] ∧
      ((shopTables users).filter fun r => shop.askedTarget (shopFields b!"5" b!"eve") q t [(q.rel.id, r)]).map (fun r =>
        t.reads.map (shop.readField [(q.rel.id,
          shop.recordOver (fun w => shopFields b!"5" b!"eve" (recordPath q w.field)) q t r)])) =
        [[some b!"5", some b!"eve"]])) (by decide +kernel)
  obtain ⟨h1, h2, h3, h4, h5, h6, h7, h8⟩ := of_decide_eq_true hp
  rw [Option.isNone_iff_eq_none] at h2 h4
  refine ⟨q, t, c, h, hr, hc, h1, h5, _, (C81_update_alone_partial shop h hr h1 h2
    (fun _ e => h3 (by rw [e]; rfl)) h4 hc _ _ _ _).2 ⟨rfl, ?_⟩, ?_⟩
  · rw [h6, h8]
  · rw [h6, ← h7]
    simp [setTable]

/-- The users older than 25 are deleted. -/
theorem C81_example_delete : ∃ q t c, Plain shopCat q t ∧ AsTold q ∧ generate q t = some c ∧ q.kind = .delete ∧
    ∃ T', shop.Runs c (shopFields [] []) shopTables T' [[some b!"7", some b!"bob"], [some b!"2", some []]] ∧
      cells (T' users) = [[some b!"5", some b!"ann", some b!"20"]] := by
  obtain ⟨q, t, c, h, hr, hc, hp⟩ := told_case (cat := shopCat) (n := b!"DeleteUsers")
    (fs := [relFld (.slice userTy), whereOf [ageFld], returnFld])
    (P := fun q t _ => decide (q.kind = .delete ∧ q.join.isNone = true ∧ tableOf q.rel.id = users ∧
      cells ((shopTables users).filter fun r => !shop.askedRow (shopFields [] []) q [(q.rel.id, r)]) =
        [[some b!"5", some b!"ann", some b!"20"]] ∧
      ((shopTables users).filter fun r => shop.askedRow (shopFields [] []) q [(q.rel.id, r)]).map (fun r =>
        t.reads.map (shop.readField [(q.rel.id, r)])) = [[some b!"7", some b!"bob"], [some b!"2", some []]]))
    (by decide +kernel)
  obtain ⟨h1, h2, h3, h4, h5⟩ := of_decide_eq_true hp
  rw [Option.isNone_iff_eq_none] at h2
  refine ⟨q, t, c, h, hr, hc, h1, _, (C81_delete_alone_partial shop h hr h1 h2 hc _ _ _ _).2 ⟨rfl, ?_⟩, ?_⟩
  · rw [h3, h5]
  · rw [h3, ← h4]
    simp [setTable]

end Verif.Generator
