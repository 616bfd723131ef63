import Verif.Config.Model
import Verif.Analysis.PropsWhere

/- C50: where the value of an option comes from. -/
namespace Verif.Config
open Verif.Analysis

/-! ### Statement -/

/-- The values given for a flag, in order. -/
def flagValues (k : Key) (fs : List (Bytes × Bytes)) : List Bytes :=
  (fs.filter fun p => flagKey p.1 = some k && p.1 ≠ b!"config").map (·.2)

/-- The values given in the file for an option, in order. -/
def fileValues (k : Key) : Option Json → List Json
  | some (.obj l) => (l.filter fun p => jsonKey p.1 = some k).map (·.2)
  | _ => []

def isNull : Json → Bool
  | .null => true
  | _ => false

/-- The first value that is not null. -/
def firstValue (js : List Json) : Option Json := js.find? fun j => !isNull j

/-! ### One option at a time -/

/-- A loop that stops at the first error. -/
def foldR {σ α : Type} (f : σ → α → R σ) : σ → List α → R σ
  | s, [] => .ok s
  | s, x :: xs => (f s x).bind fun s => foldR f s xs

/-- The Go type of an option. -/
def Part : Key → Type
  | .str _ => Opt Bytes
  | .bool _ => Opt Bool
  | .slice _ => Opt (List Bytes)
  | .argType => GoType
  | .converters => List Converter

def Config.get (c : Config) : (k : Key) → Part k
  | .str k => c.str k
  | .bool k => c.bool k
  | .slice k => c.slice k
  | .argType => c.argType
  | .converters => c.converters

/-- What one flag does to its option. -/
def setPart : (k : Key) → Part k → Bytes → R (Part k)
  | .str _, o, v => .ok (setString o v)
  | .bool _, o, v => setBool o v
  | .slice _, o, v => .ok (setSlice o v)
  | .argType, o, v => setGoType o v
  | .converters, _, _ => .err .unknownFlag

/-- What one value in the file does to its option. -/
def jsonPart : (k : Key) → Part k → Json → R (Part k)
  | .str _, o, v => jsonString o v
  | .bool _, o, v => jsonBool o v
  | .slice _, o, v => jsonSlice o v
  | .argType, o, v => jsonGoType o v
  | .converters, _, .null => .ok []
  | .converters, _, .arr l => converters l
  | .converters, _, _ => .err .badJson

section
variable {κ α : Type} [DecidableEq κ]
theorem upd_same (f : κ → α) (k : κ) (v : α) : upd f k v k = v := by simp [upd]
theorem upd_other (f : κ → α) (k x : κ) (v : α) (h : k ≠ x) : upd f k v x = f x := by
  simp [upd, Ne.symm h]
end

theorem setKey_same {c c' : Config} {k : Key} {v : Bytes} (h : setKey c k v = .ok c') :
    setPart k (c.get k) v = .ok (c'.get k) := by
  cases k with
  | str k => simp only [setKey, Res.ok.injEq] at h; subst h; exact congrArg Res.ok (upd_same _ _ _).symm
  | bool k =>
    simp only [setKey, Res.map_eq_ok] at h
    obtain ⟨o, ho, rfl⟩ := h
    exact ho.trans (congrArg Res.ok (upd_same _ _ _).symm)
  | slice k => simp only [setKey, Res.ok.injEq] at h; subst h; exact congrArg Res.ok (upd_same _ _ _).symm
  | argType =>
    simp only [setKey, Res.map_eq_ok] at h
    obtain ⟨o, ho, rfl⟩ := h
    exact ho
  | converters => cases h

theorem setKey_other {c c' : Config} {k x : Key} {v : Bytes} (h : setKey c x v = .ok c') (hx : x ≠ k) :
    c'.get k = c.get k := by
  cases x with
  | str x =>
    simp only [setKey, Res.ok.injEq] at h; subst h
    cases k <;> first | rfl | exact upd_other _ _ _ _ (fun h => hx (by rw [h])) | exact absurd rfl hx
  | bool x =>
    simp only [setKey, Res.map_eq_ok] at h
    obtain ⟨o, ho, rfl⟩ := h
    cases k <;> first | rfl | exact upd_other _ _ _ _ (fun h => hx (by rw [h])) | exact absurd rfl hx
  | slice x =>
    simp only [setKey, Res.ok.injEq] at h; subst h
    cases k <;> first | rfl | exact upd_other _ _ _ _ (fun h => hx (by rw [h])) | exact absurd rfl hx
  | argType =>
    simp only [setKey, Res.map_eq_ok] at h
    obtain ⟨o, ho, rfl⟩ := h
    cases k <;> first | rfl | exact upd_other _ _ _ _ (fun h => hx (by rw [h])) | exact absurd rfl hx
  | converters => cases h

theorem jsonKeyValue_same {c c' : Config} {k : Key} {v : Json} (h : jsonKeyValue c k v = .ok c') :
    jsonPart k (c.get k) v = .ok (c'.get k) := by
  cases k with
  | str k =>
    simp only [jsonKeyValue, Res.map_eq_ok] at h
    obtain ⟨o, ho, rfl⟩ := h
    exact ho.trans (congrArg Res.ok (upd_same _ _ _).symm)
  | bool k =>
    simp only [jsonKeyValue, Res.map_eq_ok] at h
    obtain ⟨o, ho, rfl⟩ := h
    exact ho.trans (congrArg Res.ok (upd_same _ _ _).symm)
  | slice k =>
    simp only [jsonKeyValue, Res.map_eq_ok] at h
    obtain ⟨o, ho, rfl⟩ := h
    exact ho.trans (congrArg Res.ok (upd_same _ _ _).symm)
  | argType =>
    simp only [jsonKeyValue, Res.map_eq_ok] at h
    obtain ⟨o, ho, rfl⟩ := h
    exact ho
  | converters =>
    cases v with
    | null => simp only [jsonKeyValue, Res.ok.injEq] at h; subst h; rfl
    | arr l =>
      simp only [jsonKeyValue, Res.map_eq_ok] at h
      obtain ⟨o, ho, rfl⟩ := h
      exact ho
    | bool _ => cases h
    | num _ => cases h
    | str _ => cases h
    | obj _ => cases h

theorem jsonKeyValue_other {c c' : Config} {k x : Key} {v : Json} (h : jsonKeyValue c x v = .ok c')
    (hx : x ≠ k) : c'.get k = c.get k := by
  cases x with
  | str x =>
    simp only [jsonKeyValue, Res.map_eq_ok] at h
    obtain ⟨o, ho, rfl⟩ := h
    cases k <;> first | rfl | exact upd_other _ _ _ _ (fun h => hx (by rw [h])) | exact absurd rfl hx
  | bool x =>
    simp only [jsonKeyValue, Res.map_eq_ok] at h
    obtain ⟨o, ho, rfl⟩ := h
    cases k <;> first | rfl | exact upd_other _ _ _ _ (fun h => hx (by rw [h])) | exact absurd rfl hx
  | slice x =>
    simp only [jsonKeyValue, Res.map_eq_ok] at h
    obtain ⟨o, ho, rfl⟩ := h
    cases k <;> first | rfl | exact upd_other _ _ _ _ (fun h => hx (by rw [h])) | exact absurd rfl hx
  | argType =>
    simp only [jsonKeyValue, Res.map_eq_ok] at h
    obtain ⟨o, ho, rfl⟩ := h
    cases k <;> first | rfl | exact upd_other _ _ _ _ (fun h => hx (by rw [h])) | exact absurd rfl hx
  | converters =>
    cases v with
    | null =>
      simp only [jsonKeyValue, Res.ok.injEq] at h; subst h
      cases k <;> first | rfl | exact upd_other _ _ _ _ (fun h => hx (by rw [h])) | exact absurd rfl hx
    | arr l =>
      simp only [jsonKeyValue, Res.map_eq_ok] at h
      obtain ⟨o, ho, rfl⟩ := h
      cases k <;> first | rfl | exact upd_other _ _ _ _ (fun h => hx (by rw [h])) | exact absurd rfl hx
    | bool _ => cases h
    | num _ => cases h
    | str _ => cases h
    | obj _ => cases h

/-- The flags of other options do not matter. -/
theorem parseFlags_part (k : Key) : ∀ (fs : List (Bytes × Bytes)) (c c' : Config) (f f' : Bytes),
    parseFlags c f fs = .ok (c', f') → foldR (setPart k) (c.get k) (flagValues k fs) = .ok (c'.get k)
  | [], c, c', f, f', h => by
    simp only [parseFlags, Res.ok.injEq, Prod.mk.injEq] at h
    rw [← h.1]; rfl
  | (n, v) :: fs, c, c', f, f', h => by
    rw [parseFlags] at h
    by_cases hn : n = b!"config"
    · rw [if_pos hn] at h
      have := parseFlags_part k fs c c' v f' h
      rw [← this]
      simp [flagValues, hn]
    · rw [if_neg hn] at h
      cases hk : flagKey n with
      | none => rw [hk] at h; cases h
      | some x =>
        rw [hk] at h
        simp only [Res.bind_eq_ok] at h
        obtain ⟨c1, h1, h2⟩ := h
        have ih := parseFlags_part k fs c1 c' f f' h2
        by_cases hx : x = k
        · subst hx
          have e : flagValues x ((n, v) :: fs) = v :: flagValues x fs := by
            simp [flagValues, hk, hn]
          rw [e, foldR, setKey_same h1]
          exact ih
        · have e : flagValues k ((n, v) :: fs) = flagValues k fs := by
            simp [flagValues, hk, hx]
          rw [e, ← setKey_other h1 hx]
          exact ih

/-- The other keys of the file do not matter. -/
theorem decodeKeys_part (k : Key) : ∀ (l : List (Bytes × Json)) (c c' : Config),
    decodeKeys c l = .ok c' → foldR (jsonPart k) (c.get k) (fileValues k (some (.obj l))) = .ok (c'.get k)
  | [], c, c', h => by
    simp only [decodeKeys, Res.ok.injEq] at h
    rw [← h]; rfl
  | (n, v) :: l, c, c', h => by
    rw [decodeKeys] at h
    cases hk : jsonKey n with
    | none =>
      rw [hk] at h
      have := decodeKeys_part k l c c' h
      rw [← this]
      simp [fileValues, hk]
    | some x =>
      rw [hk] at h
      simp only [Res.bind_eq_ok] at h
      obtain ⟨c1, h1, h2⟩ := h
      have ih := decodeKeys_part k l c1 c' h2
      by_cases hx : x = k
      · subst hx
        have e : fileValues x (some (.obj ((n, v) :: l))) = v :: fileValues x (some (.obj l)) := by
          simp [fileValues, hk]
        rw [e, foldR, jsonKeyValue_same h1]
        exact ih
      · have e : fileValues k (some (.obj ((n, v) :: l))) = fileValues k (some (.obj l)) := by
          simp [fileValues, hk, hx]
        rw [e, ← jsonKeyValue_other h1 hx]
        exact ih

/-- **C50** An option depends only on the flags and the keys of the file that stand for it. -/
theorem C50_option {fs : List (Bytes × Bytes)} {file : Option Json} {c : Config} (h : load fs file = .ok c)
    (k : Key) : ∃ o, foldR (setPart k) (defaultConfig.get k) (flagValues k fs) = .ok o ∧
      foldR (jsonPart k) o (fileValues k file) = .ok (c.get k) := by
  unfold load at h
  simp only [Res.bind_eq_ok] at h
  obtain ⟨⟨c1, f1⟩, h1, h2⟩ := h
  refine ⟨_, parseFlags_part k fs _ _ _ _ h1, ?_⟩
  cases file with
  | none => simp only [Res.ok.injEq] at h2; subst h2; rfl
  | some j =>
    cases j with
    | null => simp only [decode, Res.ok.injEq] at h2; subst h2; rfl
    | obj l => exact decodeKeys_part k l _ _ h2
    | bool _ => cases h2
    | num _ => cases h2
    | str _ => cases h2
    | arr _ => cases h2

/-! ### Strings -/

theorem foldR_setString (vs : List Bytes) (o : Opt Bytes) :
    foldR (fun o v => .ok (setString o v)) o vs = .ok (match vs.getLast? with
      | some v => { value := v, isSet := true }
      | none => o) := by
  induction vs generalizing o with
  | nil => rfl
  | cons v vs ih =>
    have : foldR (fun o v => .ok (setString o v)) o (v :: vs) = foldR (fun o v => .ok (setString o v)) (setString o v) vs := rfl
    rw [this, ih]
    cases vs with
    | nil => rfl
    | cons w vs => rw [List.getLast?_cons_cons]; cases h : (w :: vs).getLast? <;> simp_all

/-- Once an option is set the file does not change it. -/
theorem foldR_fix {σ α : Type} {f : σ → α → R σ} {s : σ} (h : ∀ x, f s x = .ok s) (l : List α) :
    foldR f s l = .ok s := by
  induction l with
  | nil => rfl
  | cons x l ih => rw [foldR, h]; exact ih

theorem foldR_jsonString (js : List Json) (o o' : Opt Bytes) (hs : o.isSet = false)
    (h : foldR jsonString o js = .ok o') :
    (∃ s, firstValue js = some (.str s) ∧ o' = { value := s, isSet := true }) ∨
      (firstValue js = none ∧ o' = o) := by
  induction js with
  | nil => cases h; exact .inr ⟨rfl, rfl⟩
  | cons j js ih =>
    have he : foldR jsonString o (j :: js) =
        (jsonString o j).bind fun s => foldR jsonString s js := rfl
    rw [he] at h
    cases j with
    | null =>
      simp only [jsonString, hs, Bool.false_eq_true, if_false, Res.bind_ok] at h
      exact ih h
    | str s =>
      simp only [jsonString, hs, Bool.false_eq_true, if_false, Res.bind_ok] at h
      rw [foldR_fix (f := jsonString) (s := ({ value := s, isSet := true } : Opt Bytes))
        (fun x => by simp [jsonString])] at h
      cases h
      exact .inl ⟨s, rfl, rfl⟩
    | bool _ => simp [jsonString, hs] at h
    | num _ => simp [jsonString, hs] at h
    | arr _ => simp [jsonString, hs] at h
    | obj _ => simp [jsonString, hs] at h

/-- **C50** A string option has the value of its last flag; without a flag that of the first key of the file
that is not null; without one the default. -/
theorem C50_string {fs : List (Bytes × Bytes)} {file : Option Json} {c : Config} (h : load fs file = .ok c)
    (k : StrOpt) :
    (flagValues (.str k) fs).getLast? = some (c.str k).value ∨
    (flagValues (.str k) fs = [] ∧ firstValue (fileValues (.str k) file) = some (.str (c.str k).value)) ∨
    (flagValues (.str k) fs = [] ∧ firstValue (fileValues (.str k) file) = none ∧
      (c.str k).value = (defaultConfig.str k).value) := by
  obtain ⟨o, h1, h2⟩ := C50_option h (.str k)
  have h1' := (foldR_setString (flagValues (.str k) fs) (defaultConfig.str k)).symm.trans h1
  have h2' : foldR jsonString o (fileValues (.str k) file) = .ok (c.str k) := h2
  cases hl : (flagValues (.str k) fs).getLast? with
  | some v =>
    rw [hl] at h1'
    have ho : o = ({ value := v, isSet := true } : Opt Bytes) := (Res.ok.inj h1').symm
    subst ho
    rw [foldR_fix (f := jsonString) (fun x => by simp [jsonString])] at h2'
    rw [← Res.ok.inj h2']
    exact .inl rfl
  | none =>
    rw [hl] at h1'
    have ho : o = defaultConfig.str k := (Res.ok.inj h1').symm
    subst ho
    have hn := List.getLast?_eq_none_iff.1 hl
    rcases foldR_jsonString _ _ _ (by cases k <;> rfl) h2' with ⟨s, hs, he⟩ | ⟨hs, he⟩
    · exact .inr (.inl ⟨hn, by rw [he, hs]⟩)
    · exact .inr (.inr ⟨hn, hs, by rw [he]⟩)

/-! ### Booleans -/

/-- The values of a flag that are not empty. -/
def nonEmpty (vs : List Bytes) : List Bytes := vs.filter fun v => v.length > 0

theorem foldR_setBool (vs : List Bytes) (o o' : Opt Bool)
    (h : foldR setBool o vs = .ok o') :
    (∃ v b, (nonEmpty vs).getLast? = some v ∧ parseBool? v = some b ∧ o' = { value := b, isSet := true }) ∨
      (nonEmpty vs = [] ∧ o' = o) := by
  induction vs generalizing o with
  | nil => cases h; exact .inr ⟨rfl, rfl⟩
  | cons v vs ih =>
    have he : foldR setBool o (v :: vs) =
        (setBool o v).bind fun s => foldR setBool s vs := rfl
    rw [he] at h
    by_cases hv : v.length = 0
    · simp only [setBool, hv, if_true, Res.bind_ok] at h
      have : nonEmpty (v :: vs) = nonEmpty vs := by simp [nonEmpty, List.length_eq_zero_iff.1 hv]
      rw [this]
      exact ih o h
    · have hc : nonEmpty (v :: vs) = v :: nonEmpty vs := by
        have : v ≠ [] := fun e => hv (by simp [e])
        simp [nonEmpty, List.length_pos_iff.2 this]
      cases hb : parseBool? v with
      | none => simp [setBool, hv, hb] at h
      | some b =>
        simp only [setBool, hv, if_false, hb, Res.bind_ok] at h
        left
        rcases ih _ h with ⟨w, b', h1, h2, h3⟩ | ⟨h1, h2⟩
        · refine ⟨w, b', ?_, h2, h3⟩
          rw [hc]
          cases hn : nonEmpty vs with
          | nil => rw [hn] at h1; cases h1
          | cons x xs => rw [hn] at h1; rw [List.getLast?_cons_cons]; exact h1
        · exact ⟨v, b, by rw [hc, h1]; rfl, hb, h2⟩

theorem foldR_jsonBool (js : List Json) (o o' : Opt Bool) (hs : o.isSet = false)
    (h : foldR jsonBool o js = .ok o') :
    (∃ s, firstValue js = some (.bool s) ∧ o' = { value := s, isSet := true }) ∨
      (firstValue js = none ∧ o' = o) := by
  induction js with
  | nil => cases h; exact .inr ⟨rfl, rfl⟩
  | cons j js ih =>
    have he : foldR jsonBool o (j :: js) =
        (jsonBool o j).bind fun s => foldR jsonBool s js := rfl
    rw [he] at h
    cases j with
    | null =>
      simp only [jsonBool, hs, Bool.false_eq_true, if_false, Res.bind_ok] at h
      exact ih h
    | bool s =>
      simp only [jsonBool, hs, Bool.false_eq_true, if_false, Res.bind_ok] at h
      rw [foldR_fix (f := jsonBool) (s := ({ value := s, isSet := true } : Opt Bool))
        (fun x => by simp [jsonBool])] at h
      cases h
      exact .inl ⟨s, rfl, rfl⟩
    | str _ => simp [jsonBool, hs] at h
    | num _ => simp [jsonBool, hs] at h
    | arr _ => simp [jsonBool, hs] at h
    | obj _ => simp [jsonBool, hs] at h

/-- **C50** The same for a boolean option; a flag without a value counts as not given. -/
theorem C50_bool {fs : List (Bytes × Bytes)} {file : Option Json} {c : Config} (h : load fs file = .ok c)
    (k : BoolOpt) :
    (∃ v, (nonEmpty (flagValues (.bool k) fs)).getLast? = some v ∧ parseBool? v = some (c.bool k).value) ∨
    (nonEmpty (flagValues (.bool k) fs) = [] ∧
      firstValue (fileValues (.bool k) file) = some (.bool (c.bool k).value)) ∨
    (nonEmpty (flagValues (.bool k) fs) = [] ∧ firstValue (fileValues (.bool k) file) = none ∧
      (c.bool k).value = (defaultConfig.bool k).value) := by
  obtain ⟨o, h1, h2⟩ := C50_option h (.bool k)
  have h2' : foldR jsonBool o (fileValues (.bool k) file) = .ok (c.bool k) := h2
  rcases foldR_setBool _ _ _ h1 with ⟨v, b, hv, hb, ho⟩ | ⟨hn, ho⟩
  · subst ho
    rw [foldR_fix (f := jsonBool) (fun x => by simp [jsonBool])] at h2'
    rw [← Res.ok.inj h2']
    exact .inl ⟨v, hv, hb⟩
  · subst ho
    rcases foldR_jsonBool _ _ _ rfl h2' with ⟨s, hs, he⟩ | ⟨hs, he⟩
    · exact .inr (.inl ⟨hn, by rw [he, hs]⟩)
    · exact .inr (.inr ⟨hn, hs, by rw [he]; rfl⟩)

/-! ### Lists -/

theorem foldR_setSlice (vs : List Bytes) (o : Opt (List Bytes)) :
    foldR (fun o v => .ok (setSlice o v)) o vs =
      .ok { value := o.value ++ nonEmpty vs, isSet := o.isSet || decide (nonEmpty vs ≠ []) } := by
  induction vs generalizing o with
  | nil => simp [foldR, nonEmpty]
  | cons v vs ih =>
    have : foldR (fun o v => .ok (setSlice o v)) o (v :: vs) = foldR (fun o v => .ok (setSlice o v)) (setSlice o v) vs := rfl
    rw [this, ih]
    by_cases hv : v.length = 0
    · simp [setSlice, hv, nonEmpty]
    · have : 0 < v.length := Nat.pos_of_ne_zero hv
      simp [setSlice, hv, nonEmpty, this]

/-- A list that is not empty. -/
def isList : Json → Bool
  | .arr (_ :: _) => true
  | _ => false

theorem strElems_length {l : List Json} {v : List Bytes} (h : strElems l = .ok v) : v.length = l.length := by
  induction l generalizing v with
  | nil => cases h; rfl
  | cons j js ih =>
    simp only [strElems, Res.bind_eq_ok, Res.map_eq_ok] at h
    obtain ⟨s, _, l, hl, rfl⟩ := h
    simp [ih hl]

theorem foldR_jsonSlice (js : List Json) (o o' : Opt (List Bytes)) (hs : o.isSet = false)
    (h : foldR jsonSlice o js = .ok o') :
    (∃ l v, js.find? isList = some (.arr l) ∧ strElems l = .ok v ∧ o' = { value := v, isSet := true }) ∨
      (js.find? isList = none ∧ o' = o) := by
  induction js with
  | nil => cases h; exact .inr ⟨rfl, rfl⟩
  | cons j js ih =>
    have he : foldR jsonSlice o (j :: js) =
        (jsonSlice o j).bind fun s => foldR jsonSlice s js := rfl
    rw [he] at h
    cases j with
    | null =>
      simp only [jsonSlice, hs, Bool.false_eq_true, if_false, Res.bind_ok] at h
      exact ih h
    | arr l =>
      simp only [jsonSlice, hs, Bool.false_eq_true, if_false, Res.bind_eq_ok, Res.map_eq_ok] at h
      obtain ⟨s, ⟨v, hv, rfl⟩, h⟩ := h
      have hlen := strElems_length hv
      cases l with
      | nil =>
        have : v = [] := by simpa using hlen
        subst this
        exact ih h
      | cons x l =>
        have : v.length > 0 := by rw [hlen]; simp
        rw [if_pos this, foldR_fix (f := jsonSlice) (s := ({ value := v, isSet := true } : Opt (List Bytes)))
          (fun x => by simp [jsonSlice])] at h
        cases h
        exact .inl ⟨x :: l, v, rfl, hv, rfl⟩
    | str _ => simp [jsonSlice, hs] at h
    | num _ => simp [jsonSlice, hs] at h
    | bool _ => simp [jsonSlice, hs] at h
    | obj _ => simp [jsonSlice, hs] at h

/-- **C50** A list option holds the values of its flags that are not empty; if there are none, the first
list of the file that is not empty; otherwise nothing. -/
theorem C50_slice {fs : List (Bytes × Bytes)} {file : Option Json} {c : Config} (h : load fs file = .ok c)
    (k : SliceOpt) :
    (nonEmpty (flagValues (.slice k) fs) ≠ [] ∧ (c.slice k).value = nonEmpty (flagValues (.slice k) fs)) ∨
    (nonEmpty (flagValues (.slice k) fs) = [] ∧ ∃ l,
      (fileValues (.slice k) file).find? isList = some (.arr l) ∧ strElems l = .ok (c.slice k).value) ∨
    (nonEmpty (flagValues (.slice k) fs) = [] ∧ (fileValues (.slice k) file).find? isList = none ∧
      (c.slice k).value = []) := by
  obtain ⟨o, h1, h2⟩ := C50_option h (.slice k)
  have h1' := (foldR_setSlice (flagValues (.slice k) fs) (defaultConfig.slice k)).symm.trans h1
  have h2' : foldR jsonSlice o (fileValues (.slice k) file) = .ok (c.slice k) := h2
  have ho := (Res.ok.inj h1').symm
  subst ho
  by_cases hn : nonEmpty (flagValues (.slice k) fs) = []
  · right
    rcases foldR_jsonSlice _ _ _ (by simp [hn, defaultConfig]) h2' with ⟨l, v, hl, hv, he⟩ | ⟨hl, he⟩
    · exact .inl ⟨hn, l, hl, by rw [he]; exact hv⟩
    · exact .inr ⟨hn, hl, by rw [he]; simp [hn, defaultConfig]⟩
  · left
    rw [foldR_fix (f := jsonSlice) (fun x => by simp [jsonSlice, hn])] at h2'
    rw [← Res.ok.inj h2']
    exact ⟨hn, by simp [defaultConfig]⟩

/-! ### The type of the method argument -/

/-- The text names a type: `p.n`, or `*p.n` for a pointer. -/
def Names (v : Bytes) (p n : Bytes) (ptr : Bool) : Prop :=
  '.' ∉ n ∧ if ptr then v = '*' :: p ++ b!"." ++ n else v = p ++ b!"." ++ n ∧ p.head? ≠ some '*'

theorem lastSplit_some {c : Char} {v a b : Bytes} (h : lastSplit c v = some (a, b)) :
    v = a ++ c :: b ∧ c ∉ b := by
  induction v generalizing a b with
  | nil => cases h
  | cons d ds ih =>
    rw [lastSplit] at h
    cases hl : lastSplit c ds with
    | some p =>
      rw [hl] at h
      cases h
      obtain ⟨h1, h2⟩ := ih (a := p.1) (b := p.2) hl
      exact ⟨by rw [List.cons_append, ← h1], h2⟩
    | none =>
      rw [hl] at h
      simp only [] at h
      split at h
      · rename_i hd
        cases h
        refine ⟨by rw [hd]; rfl, fun hm => ?_⟩
        obtain ⟨x, y, hxy, hy⟩ : ∃ x y, ds = x ++ c :: y ∧ c ∉ y := by
          clear hl ih
          induction ds with
          | nil => cases hm
          | cons e es ih =>
            by_cases he : c ∈ es
            · obtain ⟨x, y, h1, h2⟩ := ih he
              exact ⟨e :: x, y, by rw [h1]; rfl, h2⟩
            · rcases List.mem_cons.1 hm with rfl | hm
              · exact ⟨[], es, rfl, he⟩
              · exact absurd hm he
        rw [hxy, lastSplit_append x hy] at hl
        cases hl
      · cases h

theorem names_withPkg {v : Bytes} {a n : Bytes} {t : GoType} (h : lastSplit '.' v = some (a, n)) :
    Names v (withPkg t a).pkgPath n (v.head? == some '*') ∧
      (withPkg t a).isPtr = (t.isPtr || v.head? == some '*') := by
  obtain ⟨hv, hn⟩ := lastSplit_some h
  cases a with
  | nil => subst hv; simp [Names, withPkg, hn]
  | cons x xs =>
    by_cases hx : x = '*'
    · subst hx hv; simp [Names, withPkg, hn]
    · subst hv
      have : withPkg t (x :: xs) = { t with pkgPath := x :: xs } := by
        unfold withPkg; split
        · rename_i h; exact absurd (List.cons.inj h).1 hx
        · rfl
      simp [Names, this, hn, hx]

theorem foldR_setGoType (vs : List Bytes) (t t' : GoType) (h : foldR setGoType t vs = .ok t') :
    (∃ v, (nonEmpty vs).getLast? = some v ∧ Names v t'.pkgPath t'.name (v.head? == some '*') ∧
      t'.isPtr = (t.isPtr || (nonEmpty vs).any fun v => v.head? == some '*') ∧ t'.isSet = true) ∨
      (nonEmpty vs = [] ∧ t' = t) := by
  induction vs generalizing t with
  | nil => cases h; exact .inr ⟨rfl, rfl⟩
  | cons v vs ih =>
    rw [foldR] at h
    by_cases hv : v.length = 0
    · simp only [setGoType, hv, if_true, Res.bind_ok] at h
      have : nonEmpty (v :: vs) = nonEmpty vs := by simp [nonEmpty, List.length_eq_zero_iff.1 hv]
      rw [this]
      exact ih t h
    · have hc : nonEmpty (v :: vs) = v :: nonEmpty vs := by
        have : v ≠ [] := fun e => hv (by simp [e])
        simp [nonEmpty, List.length_pos_iff.2 this]
      cases hb : lastSplit '.' v with
      | none => simp [setGoType, hv, hb] at h
      | some p =>
        simp only [setGoType, hv, if_false, hb, Res.bind_ok] at h
        obtain ⟨hn, hp⟩ := names_withPkg (t := t) (a := p.1) (n := p.2) hb
        left
        rcases ih _ h with ⟨w, h1, h2, h3, h4⟩ | ⟨h1, h2⟩
        · refine ⟨w, ?_, h2, ?_, h4⟩
          · rw [hc]
            cases hn : nonEmpty vs with
            | nil => rw [hn] at h1; cases h1
            | cons x xs => rw [hn] at h1; rw [List.getLast?_cons_cons]; exact h1
          · rw [h3, hc]
            simp only [List.any_cons]
            rw [show (withPkg t p.1).isPtr = _ from hp, Bool.or_assoc]
        · refine ⟨v, by rw [hc, h1]; rfl, ?_, ?_, ?_⟩
          · rw [h2]; exact hn
          · rw [h2, hc, h1]
            simpa using hp
          · rw [h2]

/-- A text that is not empty. -/
def isText : Json → Bool
  | .str (_ :: _) => true
  | _ => false

theorem foldR_jsonGoType (js : List Json) (t t' : GoType) (hs : t.isSet = false)
    (h : foldR jsonGoType t js = .ok t') :
    (∃ v, js.find? isText = some (.str v) ∧ setGoType t v = .ok t') ∨
      (js.find? isText = none ∧ t' = t) := by
  induction js with
  | nil => cases h; exact .inr ⟨rfl, rfl⟩
  | cons j js ih =>
    rw [foldR] at h
    cases j with
    | null =>
      simp only [jsonGoType, hs, Bool.false_eq_true, if_false, Res.bind_ok] at h
      exact ih h
    | str v =>
      simp only [jsonGoType, hs, Bool.false_eq_true, if_false, Res.bind_eq_ok] at h
      obtain ⟨s, h1, h2⟩ := h
      cases v with
      | nil =>
        simp only [setGoType, List.length_nil, if_true] at h1
        cases h1
        exact ih h2
      | cons c v =>
        have hset : s.isSet = true := by
          simp only [setGoType, List.length_cons, Nat.add_eq_zero_iff, Nat.succ_ne_self, and_false, if_false] at h1
          cases hl : lastSplit '.' (c :: v) with
          | none => rw [hl] at h1; cases h1
          | some p => rw [hl] at h1; cases h1; rfl
        rw [foldR_fix (f := jsonGoType) (fun x => by simp [jsonGoType, hset])] at h2
        cases h2
        exact .inl ⟨c :: v, rfl, h1⟩
    | bool _ => simp [jsonGoType, hs] at h
    | num _ => simp [jsonGoType, hs] at h
    | arr _ => simp [jsonGoType, hs] at h
    | obj _ => simp [jsonGoType, hs] at h

/-- **C50** The name and package of the method argument type are those of its last flag, else of the first
text in the file, else the default; it is a pointer if that text begins with `*`, or that of an earlier flag. -/
theorem C50_argType_partial {fs : List (Bytes × Bytes)} {file : Option Json} {c : Config}
    (h : load fs file = .ok c) :
    (∃ v, (nonEmpty (flagValues .argType fs)).getLast? = some v ∧
      Names v c.argType.pkgPath c.argType.name (v.head? == some '*') ∧
      c.argType.isPtr = (nonEmpty (flagValues .argType fs)).any fun v => v.head? == some '*') ∨
    (nonEmpty (flagValues .argType fs) = [] ∧ ∃ v, (fileValues .argType file).find? isText = some (.str v) ∧
      Names v c.argType.pkgPath c.argType.name c.argType.isPtr) ∨
    (nonEmpty (flagValues .argType fs) = [] ∧ (fileValues .argType file).find? isText = none ∧
      c.argType = defaultConfig.argType) := by
  obtain ⟨o, h1', h2'⟩ : ∃ o : GoType, foldR setGoType defaultConfig.argType (flagValues .argType fs) = .ok o ∧
    foldR jsonGoType o (fileValues .argType file) = .ok c.argType := C50_option h .argType
  rcases foldR_setGoType _ _ _ h1' with ⟨v, hv, hn, hp, hset⟩ | ⟨hn, ho⟩
  · rw [foldR_fix (f := jsonGoType) (fun x => by simp [jsonGoType, hset])] at h2'
    rw [← Res.ok.inj h2']
    exact .inl ⟨v, hv, hn, by rw [hp]; rfl⟩
  · subst ho
    rcases foldR_jsonGoType _ _ _ rfl h2' with ⟨v, hv, he⟩ | ⟨hs, he⟩
    · refine .inr (.inl ⟨hn, v, hv, ?_⟩)
      have hne : v.length ≠ 0 := by
        have := List.find?_some hv
        cases v with
        | nil => cases this
        | cons _ _ => simp
      simp only [setGoType, hne, if_false] at he
      cases hl : lastSplit '.' v with
      | none => rw [hl] at he; cases he
      | some p =>
        rw [hl] at he
        obtain ⟨ha, hb⟩ := names_withPkg (t := defaultConfig.argType) (a := p.1) (n := p.2) hl
        rw [← Res.ok.inj he]
        simp only []
        rw [hb]
        exact ha
    · exact .inr (.inr ⟨hn, hs, he⟩)

/-- **C50** An earlier flag is not forgotten: the last one names a type that is no pointer. -/
theorem C50_not_argType :
    (load [(b!"argtype", b!"*a.B"), (b!"argtype", b!"c.D")] none).map (fun c => c.argType.text) =
      .ok b!"*c.D" := by decide +kernel

/-- **C50** Nor does the type get another package name: that of the default stays. -/
theorem C50_not_pkgName :
    (load [(b!"argtype", b!"c.D")] none).map (fun c => (c.argType.pkgPath, c.argType.pkgName)) =
      .ok (b!"c", b!"gosql") := by decide +kernel

/-- **C50** Converters come from the last such key of the file; there is no flag for them. -/
theorem C50_converters {fs : List (Bytes × Bytes)} {file : Option Json} {c : Config} (h : load fs file = .ok c) :
    (fileValues .converters file = [] ∧ c.converters = []) ∨
    (∃ l, (fileValues .converters file).getLast? = some (.arr l) ∧ converters l = .ok c.converters) ∨
    ((fileValues .converters file).getLast? = some .null ∧ c.converters = []) := by
  obtain ⟨o, h1, h2⟩ := C50_option h .converters
  have ho : o = defaultConfig.converters := by
    cases hf : flagValues .converters fs with
    | nil => rw [hf] at h1; exact (Res.ok.inj h1).symm
    | cons v vs => rw [hf] at h1; cases h1
  subst ho
  have h2' : foldR (jsonPart .converters) defaultConfig.converters (fileValues .converters file) =
    .ok c.converters := h2
  clear h1 h2 h
  generalize hd : defaultConfig.converters = d at h2'
  have hd' : d = [] := hd.symm
  generalize fileValues .converters file = js at *
  have key : ∀ (js : List Json) (d : List Converter), foldR (jsonPart .converters) d js = .ok c.converters →
      (js = [] ∧ c.converters = d) ∨ (∃ l, js.getLast? = some (.arr l) ∧ converters l = .ok c.converters) ∨
      (js.getLast? = some .null ∧ c.converters = []) := by
    intro js
    induction js with
    | nil => intro d h; exact .inl ⟨rfl, (Res.ok.inj h).symm⟩
    | cons j js ih =>
      intro d h
      have h' : ((jsonPart .converters d j).bind fun s => foldR (jsonPart .converters) s js) = .ok c.converters := h
      obtain ⟨s, hs, h⟩ := (Res.bind_eq_ok ..).1 h'
      right
      rcases ih s h with ⟨rfl, he⟩ | ⟨l, hl, he⟩ | ⟨hl, he⟩
      · cases j with
        | null => cases hs; exact .inr ⟨rfl, he⟩
        | arr l => exact .inl ⟨l, rfl, by rw [he]; exact hs⟩
        | str _ => cases hs
        | bool _ => cases hs
        | num _ => cases hs
        | obj _ => cases hs
      · refine .inl ⟨l, ?_, he⟩
        cases js with
        | nil => cases hl
        | cons x xs => rw [List.getLast?_cons_cons]; exact hl
      · refine .inr ⟨?_, he⟩
        cases js with
        | nil => cases hl
        | cons x xs => rw [List.getLast?_cons_cons]; exact hl
  rcases key js d h2' with ⟨h1, h2⟩ | h | h
  · exact .inl ⟨h1, h2.trans hd'⟩
  · exact .inr (.inl h)
  · exact .inr (.inr h)

/-- **C50** No flag sets the name of the methods, nor the converters. -/
theorem C50_no_flag (n : Bytes) : flagKey n ≠ some (.str .methodName) ∧ flagKey n ≠ some .converters := by
  unfold flagKey
  split <;> simp

/-! ### The file that is read -/

def hasGit (es : List Entry) : Prop := ∃ e ∈ es, e.name = b!".git" ∧ e.isDir = true

def isConf (es : List Entry) (n : Bytes) : Prop :=
  (n = b!".gosql" ∨ n = b!".gosql.json") ∧ ⟨n, false⟩ ∈ es

theorem examine_root (es : List Entry) (r : Bool) (c : Bytes) :
    (examine r c es).1 = true ↔ r = true ∨ hasGit es := by
  induction es generalizing r c with
  | nil => simp [examine, hasGit]
  | cons e es ih => rw [examine, ih]; simp [hasGit, or_assoc]

theorem examine_conf (es : List Entry) (r : Bool) (c : Bytes) :
    isConf es (examine r c es).2 ∨ ((examine r c es).2 = c ∧ ∀ n, ¬ isConf es n) := by
  induction es generalizing r c with
  | nil => simp [examine, isConf]
  | cons e es ih =>
    obtain ⟨en, ed⟩ := e
    rw [examine]
    simp only []
    rcases ih (r || (en = b!".git" && ed))
      (if (en = b!".gosql" ∨ en = b!".gosql.json") ∧ ed = false then en else c) with ⟨h1, h2⟩ | ⟨h1, h2⟩
    · exact .inl ⟨h1, List.mem_cons_of_mem _ h2⟩
    · by_cases hc : (en = b!".gosql" ∨ en = b!".gosql.json") ∧ ed = false
      · left
        rw [if_pos hc] at h1 ⊢
        rw [h1]
        refine ⟨hc.1, ?_⟩
        rw [← hc.2]; exact List.mem_cons_self
      · right
        rw [if_neg hc] at h1 ⊢
        refine ⟨h1, ?_⟩
        rintro n ⟨hn, hm⟩
        rcases List.mem_cons.1 hm with he | hm
        · cases he; exact hc ⟨hn, rfl⟩
        · exact h2 n ⟨hn, hm⟩

/-- **C50** Without `-config` the file read is in the nearest directory, from the working directory up, that
has a `.git` directory, and in no other. -/
theorem C50_file (ds : List (Bytes × List Entry)) (d n : Bytes) (h : findFile ds = some (d, n)) :
    ∃ pre es post, ds = pre ++ (d, es) :: post ∧ (∀ x ∈ pre, ¬ hasGit x.2) ∧ hasGit es ∧ isConf es n := by
  induction ds with
  | nil => cases h
  | cons x ds ih =>
    obtain ⟨d', es⟩ := x
    rw [findFile] at h
    by_cases hr : hasGit es
    · have h1 : (examine false [] es).1 = true := (examine_root es false []).2 (.inr hr)
      simp only [examineDir, h1, if_true] at h
      split at h
      · rename_i hl
        cases h
        rcases examine_conf es false [] with hc | ⟨hc, _⟩
        · exact ⟨[], es, ds, rfl, by simp, hr, hc⟩
        · rw [hc] at hl; simp at hl
      · cases h
    · have h1 : (examine false [] es).1 = false := by
        cases he : (examine false [] es).1 with
        | false => rfl
        | true => rcases (examine_root es false []).1 he with h | h
                  · cases h
                  · exact absurd h hr
      simp only [examineDir, h1, Bool.false_eq_true, if_false] at h
      obtain ⟨pre, es', post, h1, h2, h3⟩ := ih h
      refine ⟨(d', es) :: pre, es', post, by rw [h1]; rfl, ?_, h3⟩
      intro x hx
      rcases List.mem_cons.1 hx with rfl | hx
      · exact hr
      · exact h2 x hx

/-- **C50** No file is read only if there is no such directory or it has no such file. -/
theorem C50_no_file (pre post : List (Bytes × List Entry)) (d : Bytes) (es : List Entry)
    (h : findFile (pre ++ (d, es) :: post) = none) (hp : ∀ x ∈ pre, ¬ hasGit x.2) (hg : hasGit es) (n : Bytes) :
    ¬ isConf es n := by
  induction pre with
  | nil =>
    have h1 : (examine false [] es).1 = true := (examine_root es false []).2 (.inr hg)
    simp only [List.nil_append, findFile, examineDir, h1, if_true] at h
    split at h
    · cases h
    · rename_i hl
      rcases examine_conf es false [] with ⟨hc | hc, _⟩ | ⟨_, hc⟩
      · rw [hc] at hl; exact absurd (by decide) hl
      · rw [hc] at hl; exact absurd (by decide) hl
      · exact hc n
  | cons x pre ih =>
    obtain ⟨d', es'⟩ := x
    have h1 : (examine false [] es').1 = false := by
      cases he : (examine false [] es').1 with
      | false => rfl
      | true => rcases (examine_root es' false []).1 he with h | h
                · cases h
                · exact absurd h (hp _ List.mem_cons_self)
    simp only [List.cons_append, findFile, examineDir, h1, Bool.false_eq_true, if_false] at h
    exact ih h fun x hx => hp x (List.mem_cons_of_mem _ hx)

/-- A repository with both files, listed in two orders. -/
def repoDir (b : Bool) : List Entry :=
  ⟨b!".git", true⟩ :: if b then [⟨b!".gosql", false⟩, ⟨b!".gosql.json", false⟩]
    else [⟨b!".gosql.json", false⟩, ⟨b!".gosql", false⟩]

/-- **C50** A file in the working directory is not read if the repository begins further up: the nearest
configuration file is passed over. -/
theorem C50_not_nearest :
    findFile [(b!"/r/sub", [⟨b!".gosql", false⟩]), (b!"/r", [⟨b!".git", true⟩])] = none := by decide +kernel

/-- **C50** With two files in the directory the order of the listing decides. -/
theorem C50_not_deterministic :
    findFile [(b!"/r", repoDir true)] = some (b!"/r", b!".gosql.json") ∧
    findFile [(b!"/r", repoDir false)] = some (b!"/r", b!".gosql") := by decide +kernel

/-- Flags and a file together. -/
def demo : R Config :=
  load [(b!"o", b!"x_%s"), (b!"r", b!"t"), (b!"o", b!"y_%s"), (b!"f", b!"a.go"), (b!"f", []), (b!"f", b!"b.go")]
    (some (.obj [(b!"output_file_name_format", .str b!"z"), (b!"Method_Name", .null),
      (b!"method_name", .str b!"Run"), (b!"method_name", .str b!"Do"), (b!"recursive", .bool false),
      (b!"input_files", .arr [.str b!"c.go"]), (b!"input_file_regexps", .arr [.str b!"d"]),
      (b!"method_argument_type", .str b!"*database/sql.DB")]))

example : demo.map (fun c => ((c.str .outputFileNameFormat).value, (c.str .methodName).value)) =
    .ok (b!"y_%s", b!"Run") := by decide +kernel
example : demo.map (fun c => ((c.bool .recursive).value, c.argType.text)) =
    .ok (true, b!"*database/sql.DB") := by decide +kernel
example : demo.map (fun c => ((c.slice .inputFiles).value, (c.slice .inputFileRegexps).value)) =
    .ok ([b!"a.go", b!"b.go"], [b!"d"]) := by decide +kernel

example : findFile [(b!"/r/sub", []), (b!"/r", repoDir true), (b!"/", [])] = some (b!"/r", b!".gosql.json") := by
  decide +kernel

end Verif.Config
