import Verif.Generator.TreeMeaning
import Verif.Generator.PropsGram9
import Verif.Generator.PropsMeaning3
import Verif.Generator.PropsSlices
import Verif.Generator.PropsFMeaning

/- Property C94: what the statement selects is what the where struct asks for. The value of a tree. -/
namespace Verif.Generator.Gram
open Verif.Analysis Verif.Postgres Verif.Generator.Lex Print

/-- A value stands for one field, a list for one slice; the texts of both can be told apart. -/
def kinds : Slot → Bytes
  | .num _ => b!"now()"
  | .slice _ => b!"$1,$1"

theorem kinds_num (n : Int) : AtomText (kinds (.num n)) := by
  show AtomText b!"now()"
  decide

theorem kinds_slice (k : Nat) : ListText (kinds (.slice k)) := by
  refine ⟨[.param b!"1", .param b!"1"], by simp, by simp [isConst], ?_⟩
  show lex b!"$1,$1" = _
  decide

theorem atom_num {a : Slot} (h : AtomText (kinds a)) : ∃ n, a = .num n := by
  cases a with
  | num n => exact ⟨n, rfl⟩
  | slice k =>
    have : ¬ AtomText b!"$1,$1" := by decide
    exact absurd h this

theorem list_slice {a : Slot} (h : ListText (kinds a)) : ∃ k, a = .slice k := by
  cases a with
  | slice k => exact ⟨k, rfl⟩
  | num n =>
    obtain ⟨l, h1, h2, h3⟩ := h
    have h4 : lex (kinds (.num n)) = [.word b!"now", .punct '(', .punct ')'] := by
      show lex b!"now()" = _
      decide
    rw [h4] at h3
    match l with
    | [] => exact absurd rfl h1
    | [x] => simp [commaToks] at h3
    | x :: y :: l => simp [commaToks] at h3

section
variable {V : Type} {D : DbRow V} {ps : List V} {W : CondWorld V} {f : Slot → Bytes} {g : Slot → GoExpr}

/-- The parameters are the fields they stand for. -/
def Bound (D : DbRow V) (ps : List V) (W : CondWorld V) (f : Slot → Bytes) (g : Slot → GoExpr) : Slot → Prop
  | .num n =>
    isParam (atomEx (lex (f (.num n)))) = true ∧
      treeVal D ps (atomEx (lex (f (.num n)))) = some (W.field (goPath (g (.num n))))
  | .slice k =>
    (listTree (lex (f (.slice k)))).mapM (treeVal D ps) = some (W.elems (W.field (goPath (g (.slice k)))))

theorem atom_val {s : Bytes} (h : AtomText s) (hn : ∀ n, lex s ≠ [.param n]) :
    ∃ v, treeVal D ps (atomEx (lex s)) = some v := by
  unfold AtomText at h
  unfold atomEx
  generalize lex s = ts at h hn
  unfold atom at h ⊢
  split at h
  · next t =>
    split at h
    · next hc =>
      rw [if_pos hc]
      cases t <;> simp_all [treeVal, constVal]
    · cases h
  · next w =>
    split at h
    · next hc => rw [if_pos hc]; exact ⟨_, rfl⟩
    · cases h
  · cases h

theorem treeVal_of (hW : About D ps W) : ∀ (x : VExpr Slot), ValGram kinds x → (∀ a ∈ x.slots, Bound D ps W f g a) →
    Suits D W (valParts x) → ∀ v, evalV W (x.map g) = some v → treeVal D ps (valTree f x) = some v
  | .default, _, _, _, v, h => by cases h
  | .param a, hg, hb, _, v, h => by
    obtain ⟨n, rfl⟩ := atom_num hg
    have := hb (.num n) (by simp [VExpr.slots])
    rw [Bound] at this
    simp only [VExpr.map, evalV, Option.some.injEq] at h
    rw [valTree, this.2, h]
  | .col c, _, _, hl, v, h => by
    simp only [VExpr.map, evalV, Option.some.injEq] at h
    have h1 : W.col c = D.col (colPath c) := hl (.col c) (by simp [valParts])
    rw [valTree, treeVal, ← h1, h]
  | .xcol n, _, _, _, v, h => by cases h
  | .lit s, hg, _, hl, v, h => by
    obtain ⟨u, hu⟩ := atom_val (D := D) (ps := ps) hg (hl (.lit s) (by simp [valParts]))
    simp only [VExpr.map, evalV, Option.some.injEq] at h
    rw [valTree, hu, ← hW.lit s u (hl (.lit s) (by simp [valParts])) hu, h]
  | .cast x t, hg, hb, hl, v, h => by
    rw [valParts] at hl
    have h1 := treeVal_of hW x hg.1 hb (fun p hp => hl p (List.mem_append_right _ hp)) v h
    have h2 : castAs D (valTree f x) (lex t) v = v := by
      unfold castAs
      split
      · rfl
      · next hp =>
        cases x with
        | param a =>
          obtain ⟨n, rfl⟩ := atom_num hg.1
          exact absurd (hb (.num n) (by simp [VExpr.slots])).1 hp
        | _ => exact hl (.cast t) (by simp [castParts]) v
    rw [valTree, treeVal, h1, Option.map_some, h2]
  | .nullif x y, _, _, _, v, h => by cases h
  | .coalesce x y, _, _, _, v, h => by cases h
  | .call fn x, hg, hb, hl, v, h => by
    simp only [VExpr.map, evalV, Option.map_eq_some_iff] at h
    obtain ⟨u, hu, rfl⟩ := h
    rw [valTree, treeVal, treeVal_of hW x hg.2 hb hl u hu, hW.call]
    rfl
  | .quantified _ _, hg, _, _, v, h => by cases h
  | .absent, _, _, _, v, h => by cases h

theorem truth_of {e : Ex} {v : V} (h : treeVal D ps e = some v) : treeHolds D ps e = some (D.truth v) := by
  cases e <;> first | (cases h; done) | (simp only [treeHolds, h, Option.map_some])

theorem opVal_of {o : List Tok} {l r : Ex} {x y : V} (hl : treeVal D ps l = some x) (hr : treeVal D ps r = some y) :
    opVal D ps o l r = some (D.op o x y) := by
  simp only [opVal, hl, hr, Option.bind_some, Option.map_some]

theorem binTree_holds (op : BinOp) {l r : Ex} {x y : V} (hl : treeVal D ps l = some x) (hr : treeVal D ps r = some y) :
    treeHolds D ps (binTree op l r) = some (D.op (binToks op) x y) := by
  cases op <;>
    (simp only [binTree, treeHolds]
     rw [opVal_of hl hr]
     simp [wordsOf, binToks, kw, opText])

theorem quant_holds (q : Quant) {o : List Tok} {l r : Ex} {x y : V} (hl : treeVal D ps l = some x)
    (hr : treeVal D ps r = some y) :
    treeHolds D ps (.quant o (quantWord q) l r) = some (quantify q (D.op o x) (D.elems y)) := by
  simp only [treeHolds, hl, hr, Option.bind_some]
  cases q <;> simp [quantWord, quantVal, quantify]

theorem is_holds (n : Bool) (t : Truth) {e : Ex} {x : V} (h : treeVal D ps e = some x) :
    treeHolds D ps (.is n (truthWord t) e) = some (negIf n (some (D.truth x = truthVal t))) := by
  simp only [treeHolds, h, Option.bind_some]
  cases t <;> simp [truthWord, isVal, truthVal] <;> congr

theorem null_holds (n : Bool) {e : Ex} {x : V} (h : treeVal D ps e = some x) :
    treeHolds D ps (.is n b!"null" e) = some (negIf n (some (D.isNull x))) := by
  simp only [treeHolds, h, Option.bind_some]
  simp [isVal]

theorem binary_holds (hW : About D ps W) (op : BinOp) (l r : VExpr Slot) (hg : CondGram kinds (.binary op l r))
    (hb : ∀ a ∈ (BExpr.binary op l r).slots, Bound D ps W f g a) (hn : Suits D W (condParts (.binary op l r))) (b : B3)
    (h : evalBin W op (l.map g) (r.map g) = some b) : treeHolds D ps (condTree f (.binary op l r)) = some b := by
  rw [CondGram] at hg
  rw [BExpr.slots] at hb
  rw [condParts] at hn
  rw [evalBin, Option.bind_eq_some_iff] at h
  obtain ⟨x, hx, h⟩ := h
  have h1 := treeVal_of hW l hg.1 (fun a ha => hb a (List.mem_append_left _ ha))
    (fun s hs => hn s (List.mem_append_left _ hs)) x hx
  have hb' : ∀ a ∈ r.slots, Bound D ps W f g a := fun a ha => hb a (List.mem_append_right _ ha)
  have hn' : Suits D W (valParts r) := fun s hs => hn s (List.mem_append_right _ hs)
  obtain ⟨_, hg⟩ := hg
  cases r with
  | quantified q r =>
    simp only [VExpr.map, Option.map_eq_some_iff] at h
    obtain ⟨y, hy, rfl⟩ := h
    rw [condTree, quant_holds q h1 (treeVal_of hW r hg.2 hb' hn' y hy), hW.op, hW.elems]
  | _ =>
    simp only [VExpr.map] at h
    rw [condTree]
    · rw [Option.map_eq_some_iff] at h
      obtain ⟨y, hy, rfl⟩ := h
      rw [binTree_holds op h1 (treeVal_of hW _ hg hb' hn' y hy), hW.op]
    · simp

mutual
/-- **C94** A condition is true, false or unknown of a row as the tree is that PostgreSQL reads. -/
theorem treeHolds_of (hW : About D ps W) : ∀ (x : BExpr Slot), CondGram kinds x → (∀ a ∈ x.slots, Bound D ps W f g a) →
    Suits D W (condParts x) → ∀ b, evalB W (x.map g) = some b → treeHolds D ps (condTree f x) = some b
  | .binary op l r, hg, hb, hn, b, h => binary_holds hW op l r hg hb hn b (by rwa [BExpr.map, evalB] at h)
  | .inList n x a, hg, hb, hn, b, h => by
    rw [CondGram] at hg
    rw [BExpr.map, evalB, Option.map_eq_some_iff] at h
    obtain ⟨v, hv, rfl⟩ := h
    obtain ⟨k, rfl⟩ := list_slice hg.2
    rw [BExpr.slots] at hb
    have h1 := treeVal_of hW x hg.1 (fun a ha => hb a (List.mem_append_left _ ha)) (by rwa [condParts] at hn) v hv
    have h2 := hb (.slice k) (by simp)
    rw [Bound] at h2
    rw [condTree, treeHolds, h1, Option.bind_some, h2, Option.map_some]
    have h3 := hW.op .eq
    rw [show BinOp.text .eq = b!"=" from rfl] at h3
    rw [h3]
    rfl
  | .truth n t x, hg, hb, hn, b, h => by
    rw [CondGram] at hg
    rw [BExpr.map, evalB, Option.map_eq_some_iff] at h
    obtain ⟨v, hv, rfl⟩ := h
    rw [condTree, is_holds n t (treeVal_of hW x hg (by rwa [BExpr.slots] at hb) (by rwa [condParts] at hn) v hv), hW.truth]
  | .null n x, hg, hb, hn, b, h => by
    rw [CondGram] at hg
    rw [BExpr.map, evalB, Option.map_eq_some_iff] at h
    obtain ⟨v, hv, rfl⟩ := h
    rw [condTree, null_holds n (treeVal_of hW x hg (by rwa [BExpr.slots] at hb) (by rwa [condParts] at hn) v hv), hW.isNull]
  | .between x lo hi, hg, hb, hn, b, h => by
    rw [CondGram] at hg
    rw [BExpr.map, evalB, Option.bind_eq_some_iff] at h
    obtain ⟨v, hv, h⟩ := h
    rw [Option.bind_eq_some_iff] at h
    obtain ⟨u, hu, h⟩ := h
    rw [Option.map_eq_some_iff] at h
    obtain ⟨t, ht, rfl⟩ := h
    rw [BExpr.slots] at hb
    rw [condParts] at hn
    have h1 := treeVal_of hW x hg.1 (fun a ha => hb a (by simp [ha])) (fun a ha => hn a (by simp [ha])) v hv
    have h2 := treeVal_of hW lo hg.2.1 (fun a ha => hb a (by simp [ha])) (fun a ha => hn a (by simp [ha])) u hu
    have h3 := treeVal_of hW hi hg.2.2 (fun a ha => hb a (by simp [ha])) (fun a ha => hn a (by simp [ha])) t ht
    have h4 := hW.op .ge
    have h5 := hW.op .le
    rw [show BinOp.text .ge = b!">=" from rfl] at h4
    rw [show BinOp.text .le = b!"<=" from rfl] at h5
    rw [condTree, treeHolds, h1, Option.bind_some, h2, Option.bind_some, h3, Option.map_some, inRange, h4, h5]
    rfl
  | .bare x, hg, hb, hn, b, h => by
    rw [CondGram] at hg
    rw [BExpr.map, evalB, Option.map_eq_some_iff] at h
    obtain ⟨v, hv, rfl⟩ := h
    rw [condTree, truth_of (treeVal_of hW x hg (by rwa [BExpr.slots] at hb) (by rwa [condParts] at hn) v hv), hW.truth]
  | .group l, hg, hb, hn, b, h => by
    rw [condTree]
    exact listHolds_of hW l (by rwa [CondGram] at hg) (by rwa [BExpr.slots] at hb) (by rwa [condParts] at hn) b
      (by rwa [BExpr.map, evalB] at h)
/-- **C94** The same for conditions that are joined: AND is read before OR. -/
theorem listHolds_of (hW : About D ps W) : ∀ (x : BList Slot), CondsGram kinds x → (∀ a ∈ x.slots, Bound D ps W f g a) →
    Suits D W (condsParts x) → ∀ b, evalList W (x.map g) = some b → treeHolds D ps (condsTree f x) = some b
  | .nil, hg, _, _, _, _ => by rw [CondsGram] at hg; cases hg
  | .cons k x rest, hg, hb, hn, b, h => by
    rw [CondsGram] at hg
    obtain ⟨rfl, h1, h2⟩ := hg
    rw [BList.slots] at hb
    rw [condsParts] at hn
    rw [BList.map, evalList, Option.bind_eq_some_iff] at h
    obtain ⟨v, hv, h⟩ := h
    have h3 := treeHolds_of hW x h1 (fun a ha => hb a (List.mem_append_left _ ha))
      (fun a ha => hn a (List.mem_append_left _ ha)) v hv
    rw [condsTree]
    exact (restHolds_of hW rest h2 (fun a ha => hb a (List.mem_append_right _ ha))
      (fun a ha => hn a (List.mem_append_right _ ha)) _ v h3 b h).1
theorem restHolds_of (hW : About D ps W) : ∀ (x : BList Slot), RestGram kinds x → (∀ a ∈ x.slots, Bound D ps W f g a) →
    Suits D W (condsParts x) → ∀ (e : Ex) (v : B3), treeHolds D ps e = some v → ∀ b, evalRest W v (x.map g) = some b →
    treeHolds D ps (restTree f none e x) = some b ∧
    ∀ o u, treeHolds D ps o = some u → treeHolds D ps (restTree f (some o) e x) = some (or3 u b)
  | .nil, _, _, _, e, v, he, b, h => by
    rw [BList.map, evalRest, Option.some.injEq] at h
    subst h
    simp only [restTree, orTree]
    refine ⟨he, fun o u ho => ?_⟩
    rw [treeHolds, ho, Option.bind_some, he]
    rfl
  | .cons k x rest, hg, hb, hn, e, v, he, b, h => by
    rw [RestGram] at hg
    obtain ⟨hk, h1, h2⟩ := hg
    rw [BList.slots] at hb
    rw [condsParts] at hn
    have ih1 := treeHolds_of hW x h1 (fun a ha => hb a (List.mem_append_left _ ha))
      (fun a ha => hn a (List.mem_append_left _ ha))
    have ih2 := restHolds_of hW rest h2 (fun a ha => hb a (List.mem_append_right _ ha))
      (fun a ha => hn a (List.mem_append_right _ ha))
    cases k with
    | initial => exact absurd rfl hk
    | and =>
      rw [BList.map, evalRest, Option.bind_eq_some_iff] at h
      obtain ⟨y, hy, h⟩ := h
      have h3 := ih1 y hy
      have h4 : treeHolds D ps (.and e (condTree f x)) = some (and3 v y) := by
        rw [treeHolds, he, Option.bind_some, h3]
        rfl
      rw [restTree]
      · exact ih2 _ _ h4 b h
      · simp
    | or =>
      rw [BList.map, evalRest, Option.bind_eq_some_iff] at h
      obtain ⟨y, hy, h⟩ := h
      rw [Option.map_eq_some_iff] at h
      obtain ⟨z, hz, rfl⟩ := h
      have h3 := ih1 y hy
      have h4 := (ih2 _ _ h3 z hz).2
      simp only [restTree, orTree]
      refine ⟨h4 e v he, fun o u ho => ?_⟩
      have h5 : treeHolds D ps (.or o e) = some (or3 u v) := by
        rw [treeHolds, ho, Option.bind_some, he]
        rfl
      rw [h4 _ _ h5, or3_assoc]
end

end

end Verif.Generator.Gram
