import Verif.Generator.PropsTreeDb4
import Verif.Generator.PropsTreeDb6
import Verif.Generator.PropsDb7

/- Property C95: examples with a slice of records. -/
namespace Verif.Generator.Gram
open Verif.Analysis Verif.Postgres Verif.Generator.Lex Print

/-- The hypotheses that can be decided. -/
def sentRowsCheck (w : World) (q : Query) (t : TargetInfo) (c : Code) (args : List Val) : Bool :=
  isInsertOrUpdateSlice q && decide (w.records.length ≠ 0 ∧ sentArgs q w c = some args ∧
    w.records.length * c.args.length ≤ 65535 ∧
    lower q.rel.id.qualifier = q.rel.id.qualifier ∧ lower q.rel.id.alias = q.rel.id.alias ∧
    (t.conflict.isSome = true → knownAs q.rel.id ≠ b!"excluded")) &&
    ((t.reads.map (readVal (α := Slot))).flatMap valParts).all plainPart

theorem SentRows.of {cat : Catalog} {n : Bytes} {fs : List Analysis.Field} {w : World} {args : List Val}
    {P : Query → TargetInfo → Code → Bool} (h : Meets cat n fs w fun q t c => sentRowsCheck w q t c args && P q t c) :
    ∃ q t c, SentRows tshop cat q t c w args ∧ P q t c = true := by
  obtain ⟨s, t, c, ha, hk, hg, hc, hcat, ht, hi, hw, hp⟩ := h
  simp only [Bool.and_eq_true, sentRowsCheck] at hp
  obtain ⟨⟨⟨h1, h2⟩, h3⟩, hp⟩ := hp
  obtain ⟨h4, h5, h6, h7, h8, h9⟩ := of_decide_eq_true h2
  refine ⟨s.q, t, c, ?_, hp⟩
  exact {
    batch := { analyzed := ⟨_, _, _, _, s, ha, rfl⟩, checked := hk, slice := h1 }
    accepted := ⟨env0, [], n, fs, s, hc, ha, rfl⟩
    code := hg
    catalog := hcat
    texts := ht
    infos := hi
    filled := hw
    records := fun e => h4 (by rw [e]; rfl)
    sends := h5
    max := h6
    rel := ⟨h7, h8⟩
    reads := fun p hp => plainPart_plain (List.all_eq_true.1 h3 p hp)
    excluded := h9
    casts := fun _ _ _ _ => rfl }

/-- Two users are inserted. -/
theorem C95_example_insert_many : ∃ q t c args tree,
    SentRows tshop shopCat q t c (recordsOf [8, 9]) args ∧ q.kind = .insert ∧
    parse (lex (recordsText (recordsOf [8, 9]) c)) = some tree ∧
    ∃ T' out, tshop.Does (args.map asText) shopTables T' out tree ∧
      Generator.cells (T' users) = Generator.cells (shopTables users) ++
        [[some b!"8", some b!"x", some b!"18"], [some b!"9", some b!"x", some b!"18"]] := by
  obtain ⟨q, t, c, h, hp⟩ := SentRows.of (cat := shopCat) (n := b!"InsertUsers") (w := recordsOf [8, 9])
    (fs := [relFld (.slice userTy)]) (args := [.int 8, .data b!"x", .int 9, .data b!"x"])
    (P := fun q t _ => decide (q.kind = .insert ∧ t.conflict.isNone = true ∧ tableOf q.rel.id = users ∧
      Generator.cells ((recordsOf [8, 9]).records.map fun r =>
        tshop.server.recordRow (tshop.server.recordValue asText q r) q t) =
        [[some b!"8", some b!"x", some b!"18"], [some b!"9", some b!"x", some b!"18"]]))
    (Meets.of (by decide +kernel) (by decide +kernel))
  obtain ⟨h1, h2, h3, h4⟩ := of_decide_eq_true hp
  obtain ⟨tree, ht, hd⟩ := C95_insert_many (sent := asText) h h1
  rw [Option.isNone_iff_eq_none] at h2
  rw [h2] at hd
  refine ⟨q, t, c, _, tree, h, h1, ht, _, _, (hd _ _ _).2 ⟨rfl, rfl⟩, ?_⟩
  rw [h3, ← h4]
  simp [setTable, Generator.cells, Server.insertAll, Server.insertOne, recordsOf]

/-- Two of the three users get the name of their records; those without a user change nothing. -/
theorem C95_example_update_many : ∃ q t c args tree,
    SentRows tshop shopCat q t c (recordsOf [2, 7, 8]) args ∧ q.kind = .update ∧
    parse (lex (recordsText (recordsOf [2, 7, 8]) c)) = some tree ∧
    ∃ T' out, tshop.Does (args.map asText) shopTables T' out tree ∧
      Generator.cells (T' users) = [[some b!"7", some b!"x", some b!"40"], [some b!"5", some b!"ann", some b!"20"],
        [some b!"2", some b!"x", some b!"30"]] := by
  obtain ⟨q, t, c, h, hp⟩ := SentRows.of (cat := shopCat) (n := b!"UpdateUsers") (w := recordsOf [2, 7, 8])
    (fs := [relFld (.slice userTy)])
    (args := [.int 2, .data b!"x", .int 7, .data b!"x", .int 8, .data b!"x"])
    (P := fun q t _ => decide (q.kind = .update ∧
      q.join.isNone = true ∧ t.pkeys.length ≠ 0 ∧ (∀ w ∈ t.writes, canUseDefault q w.field = false) ∧
      ((t.writes ++ onlyKeys t).map fun w : FieldWrite => w.column.name).Pairwise (· ≠ ·) ∧
      (q.rel.id.alias ≠ [] ∧ q.rel.id.alias ≠ b!"x") ∧ tableOf q.rel.id = users) && decide (
      tshop.server.sameRecord asText q t (Generator.userRow b!"7" (some b!"bob") b!"40") (userRec 7) = true ∧
      tshop.server.sameRecord asText q t (Generator.userRow b!"2" none b!"30") (userRec 2) = true ∧
      ([2, 7, 8].all fun i : Nat =>
        !tshop.server.sameRecord asText q t (Generator.userRow b!"5" (some b!"ann") b!"20") (userRec (Int.ofNat i))) = true ∧
      Generator.cells [tshop.server.recordOver (tshop.server.recordValue asText q (userRec 7)) q t
          (Generator.userRow b!"7" (some b!"bob") b!"40"),
        Generator.userRow b!"5" (some b!"ann") b!"20",
        tshop.server.recordOver (tshop.server.recordValue asText q (userRec 2)) q t
          (Generator.userRow b!"2" none b!"30")] =
        [[some b!"7", some b!"x", some b!"40"], [some b!"5", some b!"ann", some b!"20"],
          [some b!"2", some b!"x", some b!"30"]]))
    (Meets.of (by decide +kernel) (by decide +kernel))
  rw [Bool.and_eq_true] at hp
  obtain ⟨h1, h2, h3, h4, h5, h6, h7⟩ := of_decide_eq_true hp.1
  obtain ⟨h12, h13, h14, h15⟩ := of_decide_eq_true hp.2
  obtain ⟨tree, ht, hd⟩ := C95_update_many_partial (sent := asText) h h1 (Option.isNone_iff_eq_none.1 h2)
    (fun e => h3 (by rw [e]; rfl)) h4 h5 h6
  refine ⟨q, t, c, _, tree, h, h1, ht, _, _, (hd _ _ _).2
    ⟨[(Generator.userRow b!"7" (some b!"bob") b!"40", some (userRec 7)),
      (Generator.userRow b!"5" (some b!"ann") b!"20", none), (Generator.userRow b!"2" none b!"30", some (userRec 2))],
    by rw [h7]; rfl, ?_, rfl, rfl⟩, ?_⟩
  · intro x hx
    simp only [List.mem_cons, List.not_mem_nil, or_false] at hx
    rcases hx with rfl | rfl | rfl
    · exact ⟨by simp [recordsOf], h12⟩
    · intro r hr
      simp only [recordsOf, List.mem_map] at hr
      obtain ⟨i, hi, rfl⟩ := hr
      simpa using List.all_eq_true.1 h14 i hi
    · exact ⟨by simp [recordsOf], h13⟩
  · rw [h7, ← h15]
    simp [setTable]

end Verif.Generator.Gram
