import Verif.Config.Props

/- C51: the textual forms of Go types and objects. -/
namespace Verif.Config
open Verif.Analysis

/-! ### Types -/

/-- **C51** A text that is set is the text that is shown. -/
theorem C51_type_text {v : Bytes} {t : GoType} (hv : v ≠ []) (h : setGoType {} v = .ok t) :
    t.text = v ∧ t.isSet = true := by
  have hl : v.length ≠ 0 := fun e => hv (List.length_eq_zero_iff.1 e)
  simp only [setGoType, hl, if_false] at h
  cases hs : lastSplit '.' v with
  | none => rw [hs] at h; cases h
  | some p =>
    rw [hs] at h
    obtain ⟨⟨_, hn⟩, hp⟩ := names_withPkg (t := {}) (a := p.1) (n := p.2) hs
    rw [← Res.ok.inj h]
    refine ⟨?_, rfl⟩
    simp only [GoType.text, hp, Bool.false_or]
    cases hb : v.head? == some '*' with
    | true => rw [hb] at hn; simpa using hn.symm
    | false => rw [hb] at hn; simpa using hn.1.symm

/-- **C51** The text of a type, set on any other type, gives its name and package; the result is a pointer if
either was. -/
theorem C51_type_round (r t : GoType) (hn : '.' ∉ t.name) (hp : t.isPtr = true ∨ t.pkgPath.head? ≠ some '*') :
    setGoType r t.text =
      .ok { r with name := t.name, pkgPath := t.pkgPath, isPtr := r.isPtr || t.isPtr, isSet := true } := by
  have key : ∀ a : Bytes, setGoType r (a ++ b!"." ++ t.name) =
      .ok { withPkg r a with name := t.name, isSet := true } := by
    intro a
    have hl : (a ++ b!"." ++ t.name).length ≠ 0 := by simp
    have hs : lastSplit '.' (a ++ b!"." ++ t.name) = some (a, t.name) := by
      rw [List.append_assoc]; exact lastSplit_append a hn
    rw [setGoType, if_neg hl, hs]
  cases ht : t.isPtr with
  | true =>
    rw [GoType.text, if_pos ht]
    have := key ('*' :: t.pkgPath)
    refine Eq.trans this ?_
    simp [withPkg]
  | false =>
    rw [GoType.text, if_neg (by simp [ht]), key]
    rcases hp with h | h
    · rw [h] at ht; cases ht
    · have : withPkg r t.pkgPath = { r with pkgPath := t.pkgPath } := by
        unfold withPkg; split
        · rename_i hx; rw [hx] at h; simp at h
        · rfl
      rw [this]; simp

/-- **C51** Hence, set on an empty value, it gives the same type, apart from the package's name, which the text
does not have. -/
theorem C51_type {t : GoType} (hn : '.' ∉ t.name) (hp : t.isPtr = true ∨ t.pkgPath.head? ≠ some '*') :
    setGoType {} t.text = .ok { t with pkgName := [], isSet := true } := by
  rw [C51_type_round {} t hn hp]; simp

/-- **C51** What is parsed can be shown and parsed again. -/
theorem C51_type_again {v : Bytes} {t : GoType} (h : setGoType {} v = .ok t) (hv : v ≠ []) :
    setGoType {} t.text = .ok t := by
  rw [(C51_type_text hv h).1, h]

/-- **C51** A text is refused exactly if it has no dot. -/
theorem C51_type_refused (r : GoType) (v : Bytes) :
    setGoType r v = .err .badGoType ↔ v ≠ [] ∧ '.' ∉ v := by
  rw [setGoType]
  by_cases hv : v.length = 0
  · simp [List.length_eq_zero_iff.1 hv]
  · have hne : v ≠ [] := fun e => hv (by simp [e])
    rw [if_neg hv]
    cases hs : lastSplit '.' v with
    | none =>
      simp only [true_iff]
      refine ⟨hne, fun hm => ?_⟩
      have : ∀ w : Bytes, '.' ∈ w → lastSplit '.' w ≠ none := by
        intro w
        induction w with
        | nil => simp
        | cons c cs ih =>
          intro hm
          rw [lastSplit]
          cases hc : lastSplit '.' cs with
          | some p => simp
          | none =>
            rcases List.mem_cons.1 hm with h | h
            · simp [← h]
            · exact absurd hc (ih h)
      exact this v hm hs
    | some p =>
      simp only [reduceCtorEq, false_iff]
      rintro ⟨_, h⟩
      exact h ((lastSplit_some (a := p.1) (b := p.2) hs).1 ▸ by simp)

/-- **C51** Set on a pointer type, the text of another type gives a pointer. -/
theorem C51_not_receiver :
    (setGoType { name := b!"B", pkgPath := b!"a", isPtr := true } b!"c.D").map GoType.text = .ok b!"*c.D" := by
  decide +kernel

/-- **C51** A name with a dot is not read back. -/
theorem C51_not_dot :
    (setGoType {} (GoType.text { name := b!"B.C", pkgPath := b!"a" })).map (fun t => (t.pkgPath, t.name)) =
      .ok (b!"a.B", b!"C") := by decide +kernel

/-- **C51** Nor is a path that begins with `*`. -/
theorem C51_not_star :
    (setGoType {} (GoType.text { name := b!"B", pkgPath := b!"*a" })).map (fun t => (t.pkgPath, t.isPtr)) =
      .ok (b!"a", true) := by decide +kernel

example : (setGoType {} b!"*github.com/jackc/pgx.Conn").map (fun t => (t.pkgPath, t.name, t.isPtr)) =
    .ok (b!"github.com/jackc/pgx", b!"Conn", true) := by decide +kernel

/-! ### Objects -/

/-- A package path as the configuration knows it: two characters or more, the first and the last a letter, a
digit or `_`, the others also `.` or `/`. -/
def ObjPath (p : Bytes) : Prop :=
  ∃ a m z, p = a :: (m ++ [z]) ∧ Rx.wordChar a = true ∧ Rx.wordChar z = true ∧
    ∀ c ∈ m, Rx.wordChar c = true ∨ c = '.' ∨ c = '/'

theorem objChar_iff (c : Char) : objChar c = true ↔ Rx.wordChar c = true ∨ c = '.' ∨ c = '/' := by
  simp only [objChar, Bool.or_eq_true, Bool.and_eq_true, decide_eq_true_eq]
  refine or_congr Iff.rfl ?_
  have hd : '.'.toNat = 46 := rfl
  have hs : '/'.toNat = 47 := rfl
  rw [hd, hs]
  constructor
  · rintro ⟨h1, h2⟩
    have : c.toNat = 46 ∨ c.toNat = 47 := by omega
    rcases this with h | h
    · left; exact Char.toNat_inj.1 (h.trans hd.symm)
    · right; exact Char.toNat_inj.1 (h.trans hs.symm)
  · rintro (rfl | rfl) <;> decide

theorem lang_cls (p : Char → Bool) (s : Bytes) : Rx.Lang (.cls p) s ↔ ∃ c, s = [c] ∧ p c = true := by
  constructor
  · intro h; cases h with | cls h => exact ⟨_, rfl, h⟩
  · rintro ⟨c, rfl, h⟩; exact .cls h

theorem lang_obj (s : Bytes) :
    rxObjId.matches s = true ↔ ∃ p n, s = p ++ '.' :: n ∧ ObjPath p ∧ Ident n := by
  rw [Rx.matches_iff, rxObjId]
  simp only [Rx.lang_seq, lang_cls, Rx.lang_star_cls, Rx.lang_chr, ident_iff]
  constructor
  · rintro ⟨_, _, rfl, ⟨a, rfl, ha⟩, m, _, rfl, hm, _, _, rfl, ⟨z, rfl, hz⟩, _, n, rfl, rfl, hn⟩
    exact ⟨a :: (m ++ [z]), n, by simp, ⟨a, m, z, rfl, ha, hz, fun c hc => (objChar_iff c).1 (hm c hc)⟩, hn⟩
  · rintro ⟨_, n, rfl, ⟨a, m, z, rfl, ha, hz, hm⟩, hn⟩
    exact ⟨[a], _, by simp, ⟨a, rfl, ha⟩, m, z :: '.' :: n, rfl, fun c hc => (objChar_iff c).2 (hm c hc),
      [z], _, rfl, ⟨z, rfl, hz⟩, ['.'], n, rfl, rfl, hn⟩

/-- **C51** Which objects can be named, and that each is read back from its text. -/
theorem C51_object (r : ObjectIdent) (p n : Bytes) :
    setObject r (ObjectIdent.text { pkgPath := p, name := n }) = .ok { pkgPath := p, name := n, isSet := true } ↔
      (ObjPath p ∧ Ident n) ∨ (p = [] ∧ n = [] ∧ r = { isSet := true }) := by
  constructor
  · intro h
    by_cases hv : (ObjectIdent.text { pkgPath := p, name := n }).length = 0
    · right
      rw [setObject, if_pos hv] at h
      have hr := Res.ok.inj h
      have hn : n = [] := by
        cases n with
        | nil => rfl
        | cons c cs => simp [ObjectIdent.text] at hv
      subst hn
      have hp : p = [] := by simpa [ObjectIdent.text] using hv
      subst hp
      exact ⟨rfl, rfl, hr⟩
    · left
      rw [setObject, if_neg hv] at h
      cases hm : rxObjId.matches (ObjectIdent.text { pkgPath := p, name := n }) with
      | false => rw [hm] at h; cases h
      | true =>
        obtain ⟨p', n', he, hp, hn⟩ := (lang_obj _).1 hm
        have hl := lastSplit_append p' (hn.not_mem '.' (by decide))
        rw [hm, he] at h
        simp only [Bool.not_true, Bool.false_eq_true, if_false] at h
        rw [show lastSplit '.' (p' ++ '.' :: n') = some (p', n') from hl] at h
        cases h
        exact ⟨hp, hn⟩
  · rintro (⟨hp, hn⟩ | ⟨rfl, rfl, rfl⟩)
    · have hn0 : n.length > 0 := List.length_pos_iff.2 hn.ne_nil
      have ht : ObjectIdent.text { pkgPath := p, name := n } = p ++ '.' :: n := by
        simp [ObjectIdent.text, hn0]
      have hm := (lang_obj (p ++ '.' :: n)).2 ⟨p, n, rfl, hp, hn⟩
      have hl : lastSplit '.' (p ++ '.' :: n) = some (p, n) := lastSplit_append p (hn.not_mem '.' (by decide))
      rw [ht, setObject, if_neg (by simp), hm, hl]
      rfl
    · rfl

/-- **C51** A text that is accepted is the text that is shown. -/
theorem C51_object_text {r o : ObjectIdent} {v : Bytes} (hv : v ≠ []) (h : setObject r v = .ok o) :
    o.text = v ∧ ObjPath o.pkgPath ∧ Ident o.name := by
  have hl : v.length ≠ 0 := fun e => hv (List.length_eq_zero_iff.1 e)
  rw [setObject, if_neg hl] at h
  cases hm : rxObjId.matches v with
  | false => rw [hm] at h; cases h
  | true =>
    obtain ⟨p, n, he, hp, hn⟩ := (lang_obj _).1 hm
    rw [hm] at h
    simp only [Bool.not_true, Bool.false_eq_true, if_false] at h
    rw [he, show lastSplit '.' (p ++ '.' :: n) = some (p, n) from
      lastSplit_append p (hn.not_mem '.' (by decide))] at h
    cases h
    have hn0 : n.length > 0 := List.length_pos_iff.2 hn.ne_nil
    exact ⟨by simp [ObjectIdent.text, hn0, he], hp, hn⟩

/-- **C51** Setting an object never panics: `value[:i]` has a dot. -/
theorem C51_object_no_panic (r : ObjectIdent) (v : Bytes) : setObject r v ≠ .panic := by
  rw [setObject]
  split
  · simp
  · cases hm : rxObjId.matches v with
    | false => simp
    | true =>
      obtain ⟨p, n, he, hp, hn⟩ := (lang_obj _).1 hm
      rw [he, show lastSplit '.' (p ++ '.' :: n) = some (p, n) from
        lastSplit_append p (hn.not_mem '.' (by decide))]
      simp

/-- **C51** A path with a hyphen is refused: the class in the regular expression has a range where a hyphen
was meant. So is a path of one letter. -/
theorem C51_not_object :
    setObject {} b!"github.com/go-pg/pg.F" = .err .badObjectIdent ∧
    setObject {} b!"a.F" = .err .badObjectIdent := by decide +kernel

example : setObject {} b!"github.com/frk/gosql.F" =
    .ok { pkgPath := b!"github.com/frk/gosql", name := b!"F", isSet := true } := by decide +kernel

end Verif.Config
