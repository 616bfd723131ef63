import Verif.Analysis.Ident

/-
Properties C28 (relation identifiers), C29 (column identifiers) and C30 (relation space).
-/
namespace Verif.Analysis

/-! ### Specification -/

/-- A valid identifier: begins with a letter or underscore, continues with letters, digits,
underscores. -/
def Ident (s : Bytes) : Prop :=
  ∃ c cs, s = c :: cs ∧ (c.isAlpha ∨ c = '_') ∧ ∀ d ∈ cs, d.isAlpha ∨ d.isDigit ∨ d = '_'

/-- An optional identifier part. -/
def OptIdent (s : Bytes) : Prop := s = [] ∨ Ident s

/-- The written form `[qualifier.]name[:alias]`. -/
def renderRel (id : RelIdent) : Bytes :=
  (if id.qualifier = [] then [] else id.qualifier ++ b!".") ++ id.name ++
  (if id.alias = [] then [] else b!":" ++ id.alias)

/-- The written form `[qualifier.]name`. -/
def renderCol (id : ColIdent) : Bytes :=
  (if id.qualifier = [] then [] else id.qualifier ++ b!".") ++ id.name

/-! ### Lemmas -/

theorem ident_iff (s : Bytes) : Rx.Lang Rx.ident s ↔ Ident s := by
  rw [Rx.lang_ident]
  unfold Ident
  have h1 : ∀ c : Char, Rx.idStart c = true ↔ (c.isAlpha = true ∨ c = '_') := by
    intro c; simp [Rx.idStart]
  have h2 : ∀ c : Char, Rx.wordChar c = true ↔ (c.isAlpha = true ∨ c.isDigit = true ∨ c = '_') := by
    intro c; simp [Rx.wordChar, Char.isAlphanum, or_assoc]
  simp only [h1, h2]

theorem Ident.ne_nil {s : Bytes} (h : Ident s) : s ≠ [] := by
  obtain ⟨c, cs, rfl, _⟩ := h; simp

theorem Ident.mem {s : Bytes} (h : Ident s) {c : Char} (hc : c ∈ s) :
    c.isAlpha ∨ c.isDigit ∨ c = '_' := by
  obtain ⟨d, ds, rfl, h1, h2⟩ := h
  rcases List.mem_cons.1 hc with rfl | hc
  · rcases h1 with h1 | h1
    · exact .inl h1
    · exact .inr (.inr h1)
  · exact h2 c hc

theorem Ident.not_mem {s : Bytes} (h : Ident s) (c : Char)
    (hc : (c.isAlpha || c.isDigit || c == '_') = false) : c ∉ s := by
  intro hm
  have := h.mem hm
  simp at hc
  rcases this with h | h | h
  · simp [h] at hc
  · simp [h] at hc
  · exact hc.2 h

theorem lastSplit_none {c : Char} {s : Bytes} (h : c ∉ s) : lastSplit c s = none := by
  induction s with
  | nil => rfl
  | cons d ds ih =>
    simp at h
    simp [lastSplit, ih h.2, Ne.symm h.1]

theorem lastSplit_append {c : Char} (a : Bytes) {b : Bytes} (h : c ∉ b) :
    lastSplit c (a ++ c :: b) = some (a, b) := by
  induction a with
  | nil => simp [lastSplit, lastSplit_none h]
  | cons d ds ih => simp [lastSplit, ih]

theorem lang_rel (s : Bytes) : rxRelIdent.matches s = true ↔
    ∃ id : RelIdent, Ident id.name ∧ OptIdent id.alias ∧ OptIdent id.qualifier ∧
      s = renderRel id := by
  rw [Rx.matches_iff]
  unfold rxRelIdent
  simp only [Rx.lang_seq, Rx.lang_opt, Rx.lang_chr, ident_iff]
  constructor
  · rintro ⟨u, v, rfl, hu, n, w, rfl, hn, hw⟩
    rcases hu with ⟨q, d, rfl, hq, rfl⟩ | rfl <;> rcases hw with ⟨d', al, rfl, rfl, hal⟩ | rfl
    · exact ⟨⟨n, al, q⟩, hn, .inr hal, .inr hq, by simp [renderRel, hq.ne_nil, hal.ne_nil]⟩
    · exact ⟨⟨n, [], q⟩, hn, .inl rfl, .inr hq, by simp [renderRel, hq.ne_nil]⟩
    · exact ⟨⟨n, al, []⟩, hn, .inr hal, .inl rfl, by simp [renderRel, hal.ne_nil]⟩
    · exact ⟨⟨n, [], []⟩, hn, .inl rfl, .inl rfl, by simp [renderRel]⟩
  · rintro ⟨⟨n, al, q⟩, hn, hal, hq, rfl⟩
    refine ⟨(if q = [] then [] else q ++ b!"."), n ++ (if al = [] then [] else b!":" ++ al),
      by simp [renderRel], ?_, n, _, rfl, hn, ?_⟩
    · rcases hq with rfl | hq
      · simp
      · left; exact ⟨q, b!".", by simp [hq.ne_nil], hq, rfl⟩
    · rcases hal with rfl | hal
      · simp
      · left; exact ⟨b!":", al, by simp [hal.ne_nil], rfl, hal⟩

theorem lang_col (s : Bytes) : rxColIdent.matches s = true ↔
    ∃ id : ColIdent, Ident id.name ∧ OptIdent id.qualifier ∧ s = renderCol id := by
  rw [Rx.matches_iff]
  unfold rxColIdent
  simp only [Rx.lang_seq, Rx.lang_opt, Rx.lang_chr, ident_iff]
  constructor
  · rintro ⟨u, n, rfl, hu, hn⟩
    rcases hu with ⟨q, d, rfl, hq, rfl⟩ | rfl
    · exact ⟨⟨q, n⟩, hn, .inr hq, by simp [renderCol, hq.ne_nil]⟩
    · exact ⟨⟨[], n⟩, hn, .inl rfl, by simp [renderCol]⟩
  · rintro ⟨⟨q, n⟩, hn, hq, rfl⟩
    refine ⟨(if q = [] then [] else q ++ b!"."), n, rfl, ?_, hn⟩
    rcases hq with rfl | hq
    · simp
    · left; exact ⟨q, b!".", by simp [hq.ne_nil], hq, rfl⟩

theorem parseRelIdent_render (id : RelIdent) (hn : Ident id.name) (hal : OptIdent id.alias)
    (hq : OptIdent id.qualifier) : parseRelIdent (renderRel id) = .ok id := by
  have hm : rxRelIdent.matches (renderRel id) = true := (lang_rel _).2 ⟨id, hn, hal, hq, rfl⟩
  obtain ⟨n, al, q⟩ := id
  simp only at hn hal hq
  have hdn : '.' ∉ n := hn.not_mem '.' (by decide)
  have hcn : ':' ∉ n := hn.not_mem ':' (by decide)
  have hdal : '.' ∉ al := by
    rcases hal with rfl | hal
    · simp
    · exact hal.not_mem '.' (by decide)
  have hcal : ':' ∉ al := by
    rcases hal with rfl | hal
    · simp
    · exact hal.not_mem ':' (by decide)
  unfold parseRelIdent
  rw [if_pos hm]
  have h1 : '.' ∉ n ++ (if al = [] then [] else b!":" ++ al) := by
    split <;> simp [hdn, hdal]
  have h2 : cutQualifier (renderRel ⟨n, al, q⟩) = (q, n ++ (if al = [] then [] else b!":" ++ al)) := by
    unfold cutQualifier
    rcases hq with rfl | hq
    · have : renderRel ⟨n, al, []⟩ = n ++ (if al = [] then [] else b!":" ++ al) := by
        simp [renderRel]
      rw [this, lastSplit_none h1]
    · have : renderRel ⟨n, al, q⟩ = q ++ '.' :: (n ++ (if al = [] then [] else b!":" ++ al)) := by
        simp [renderRel, hq.ne_nil]
      rw [this, lastSplit_append q h1]
  rw [h2]
  rcases hal with rfl | hal
  · simp [cutAlias, lastSplit_none hcn]
  · have : n ++ (if al = [] then [] else b!":" ++ al) = n ++ ':' :: al := by simp [hal.ne_nil]
    rw [this]
    simp [cutAlias, lastSplit_append n hcal]

/-! ### C28 -/

/-- **C28**: a tag value parses as a relation identifier exactly if it is the written form of one
made of valid parts, and the result are those parts; everything else is rejected. -/
theorem C28_rel_ident (s : Bytes) (id : RelIdent) :
    parseRelIdent s = .ok id ↔
      Ident id.name ∧ OptIdent id.alias ∧ OptIdent id.qualifier ∧ s = renderRel id := by
  constructor
  · intro h
    by_cases hm : rxRelIdent.matches s = true
    · obtain ⟨id', hn, hal, hq, rfl⟩ := (lang_rel s).1 hm
      rw [parseRelIdent_render id' hn hal hq] at h
      cases h
      exact ⟨hn, hal, hq, rfl⟩
    · simp [parseRelIdent, hm] at h
  · rintro ⟨hn, hal, hq, rfl⟩
    exact parseRelIdent_render id hn hal hq

/-- Anything not of the required form gives the error, and nothing else can happen. -/
theorem C28_reject (s : Bytes) :
    parseRelIdent s = .err .badRelIdTagValue ↔
      ¬ ∃ id : RelIdent, Ident id.name ∧ OptIdent id.alias ∧ OptIdent id.qualifier ∧
        s = renderRel id := by
  rw [← lang_rel]
  unfold parseRelIdent
  split
  · rename_i h; simp [h]
  · rename_i h; simp [h]

/-- The written form determines the parts: two identifiers never share a tag value. -/
theorem C28_unique (a b : RelIdent) (ha : Ident a.name ∧ OptIdent a.alias ∧ OptIdent a.qualifier)
    (hb : Ident b.name ∧ OptIdent b.alias ∧ OptIdent b.qualifier)
    (h : renderRel a = renderRel b) : a = b := by
  have h1 := (C28_rel_ident (renderRel a) a).2 ⟨ha.1, ha.2.1, ha.2.2, rfl⟩
  have h2 := (C28_rel_ident (renderRel b) b).2 ⟨hb.1, hb.2.1, hb.2.2, rfl⟩
  rw [h, h2] at h1
  cases h1; rfl

example : parseRelIdent b!"public.user_2:u" =
    .ok { name := b!"user_2", alias := b!"u", qualifier := b!"public" } := by decide +kernel
example : parseRelIdent b!"a.b.c" = .err .badRelIdTagValue := by decide +kernel
example : parseRelIdent b!"2a" = .err .badRelIdTagValue := by decide +kernel
example : parseRelIdent b!"a:b:c" = .err .badRelIdTagValue := by decide +kernel
example : parseRelIdent b!"a:" = .err .badRelIdTagValue := by decide +kernel
example : parseRelIdent b!" a" = .err .badRelIdTagValue := by decide +kernel
example : parseRelIdent [] = .err .badRelIdTagValue := by decide +kernel

/-! ### C29 -/

/-- Not one of the eleven reserved words, in whatever letter case (ASCII). -/
def Reserved (s : Bytes) : Prop :=
  lower s ∈ [b!"true", b!"false", b!"current_date", b!"current_time", b!"current_timestamp",
    b!"current_role", b!"current_schema", b!"current_user", b!"localtime", b!"localtimestamp",
    b!"session_user"]

/-- The column reference is well-formed and not reserved. -/
def WellFormedCol (s : Bytes) : Prop :=
  (∃ id : ColIdent, Ident id.name ∧ OptIdent id.qualifier ∧ s = renderCol id) ∧ ¬ Reserved s

theorem isReserved_iff (s : Bytes) : isReserved s = true ↔ Reserved s := by
  unfold isReserved Reserved reservedWords
  rw [List.contains_iff_mem]

theorem isColIdent_iff (s : Bytes) : isColIdent s = true ↔ WellFormedCol s := by
  unfold isColIdent WellFormedCol
  rw [Bool.and_eq_true, lang_col, ← isReserved_iff]
  simp

theorem lastSplit_renderCol (id : ColIdent) (hn : Ident id.name) (hq : OptIdent id.qualifier) :
    lastSplit '.' (renderCol id) =
      if id.qualifier = [] then none else some (id.qualifier, id.name) := by
  obtain ⟨q, n⟩ := id
  simp only at hn hq
  have hd : '.' ∉ n := hn.not_mem '.' (by decide)
  rcases hq with rfl | hq
  · simp [renderCol, lastSplit_none hd]
  · have : renderCol ⟨q, n⟩ = q ++ '.' :: n := by simp [renderCol, hq.ne_nil]
    rw [this, lastSplit_append q hd]
    simp [hq.ne_nil]

theorem parseColIdent_render (rs : RelSpace) (id : ColIdent) (hn : Ident id.name)
    (hq : OptIdent id.qualifier) (hr : ¬ Reserved (renderCol id)) :
    parseColIdent rs (renderCol id) =
      if id.qualifier = [] then .ok id
      else match rs.get id.qualifier with
        | none => .err .unknownColumnQualifier
        | some _ => .ok id := by
  have hm : isColIdent (renderCol id) = true := (isColIdent_iff _).2 ⟨⟨id, hn, hq, rfl⟩, hr⟩
  unfold parseColIdent
  rw [if_pos hm, lastSplit_renderCol id hn hq]
  obtain ⟨q, n⟩ := id
  by_cases h : q = []
  · subst h; simp [renderCol]
  · simp only [h, if_false]
    cases rs.get q <;> rfl

/-- **C29**: a tag value parses as a column identifier exactly if it is the written form of one
made of valid parts, is not reserved, and its qualifier, if any, names a declared relation. -/
theorem C29_col_ident (rs : RelSpace) (s : Bytes) (id : ColIdent) :
    parseColIdent rs s = .ok id ↔
      Ident id.name ∧ OptIdent id.qualifier ∧ s = renderCol id ∧ ¬ Reserved s ∧
      (id.qualifier = [] ∨ ∃ r, (id.qualifier, r) ∈ rs) := by
  have hget : ∀ k : Bytes, (∃ r, (k, r) ∈ rs) ↔ rs.get k ≠ none := by
    intro k
    unfold RelSpace.get
    induction rs with
    | nil => simp
    | cons p ps ih =>
      obtain ⟨a, b⟩ := p
      by_cases h : k = a
      · subst h; simp
      · have h' : (k == a) = false := by simp [h]
        simp only [List.mem_cons, Prod.mk.injEq, h, false_and, false_or, List.lookup, h']
        exact ih
  constructor
  · intro h
    by_cases hm : isColIdent s = true
    · obtain ⟨⟨id', hn, hq, rfl⟩, hr⟩ := (isColIdent_iff s).1 hm
      rw [parseColIdent_render rs id' hn hq hr] at h
      by_cases hq0 : id'.qualifier = []
      · rw [if_pos hq0] at h; cases h
        exact ⟨hn, hq, rfl, hr, .inl hq0⟩
      · rw [if_neg hq0] at h
        cases hg : rs.get id'.qualifier with
        | none => rw [hg] at h; cases h
        | some r =>
          rw [hg] at h; cases h
          exact ⟨hn, hq, rfl, hr, .inr ((hget _).2 (by simp [hg]))⟩
    · simp [parseColIdent, hm] at h
  · rintro ⟨hn, hq, rfl, hr, hk⟩
    rw [parseColIdent_render rs id hn hq hr]
    rcases hk with hk | hk
    · simp [hk]
    · split
      · rfl
      · have := (hget _).1 hk
        cases hg : rs.get id.qualifier with
        | none => exact absurd hg this
        | some r => rfl

/-- Everything else is an error: a malformed or reserved value, or an unknown qualifier. -/
theorem C29_reject (rs : RelSpace) (s : Bytes) :
    (parseColIdent rs s = .err .badColIdTagValue ↔ ¬ WellFormedCol s) ∧
    (parseColIdent rs s = .err .unknownColumnQualifier ↔
      WellFormedCol s ∧ ∃ q n, q ≠ [] ∧ s = q ++ b!"." ++ n ∧ Ident q ∧ Ident n ∧
        ∀ r, (q, r) ∉ rs) ∧
    (∀ e, parseColIdent rs s = .err e → e = .badColIdTagValue ∨ e = .unknownColumnQualifier) ∧
    parseColIdent rs s ≠ .panic := by
  have hget : ∀ k : Bytes, (∀ r, (k, r) ∉ rs) ↔ rs.get k = none := by
    intro k
    unfold RelSpace.get
    induction rs with
    | nil => simp
    | cons p ps ih =>
      obtain ⟨a, b⟩ := p
      by_cases h : k = a
      · subst h; simp; exact ⟨b, fun h => absurd rfl h⟩
      · have h' : (k == a) = false := by simp [h]
        simp only [List.mem_cons, Prod.mk.injEq, h, false_and, false_or, List.lookup, h']
        exact ih
  by_cases hm : isColIdent s = true
  · have hw := (isColIdent_iff s).1 hm
    obtain ⟨⟨id', hn, hq, rfl⟩, hr⟩ := (isColIdent_iff s).1 hm
    rw [parseColIdent_render rs id' hn hq hr]
    by_cases hq0 : id'.qualifier = []
    · rw [if_pos hq0]
      refine ⟨by simp [hw], ?_, by simp, by simp⟩
      simp only [reduceCtorEq, false_iff, not_and, not_exists]
      rintro _ q n hqn hs hq' _ _
      have hd : '.' ∉ id'.name := hn.not_mem '.' (by decide)
      have : renderCol id' = id'.name := by simp [renderCol, hq0]
      rw [this] at hs
      rw [hs] at hd
      simp at hd
    · rw [if_neg hq0]
      cases hg : rs.get id'.qualifier with
      | none =>
        refine ⟨by simp [hw], ?_, by simp, by simp⟩
        simp only [true_iff]
        exact ⟨hw, id'.qualifier, id'.name, hq0, by simp [renderCol, hq0],
          hq.resolve_left hq0, hn, (hget _).2 hg⟩
      | some r =>
        refine ⟨by simp [hw], ?_, by simp, by simp⟩
        simp only [reduceCtorEq, false_iff, not_and, not_exists]
        rintro _ q n hqn hs hq' hn' hall
        have h1 := lastSplit_renderCol id' hn hq
        have h2 := lastSplit_renderCol ⟨q, n⟩ hn' (.inr hq')
        have h3 : renderCol ⟨q, n⟩ = renderCol id' := by rw [hs]; simp [renderCol, hqn]
        rw [h3, h1] at h2
        simp [hq0, hqn] at h2
        have := (hget q).1 hall
        rw [← h2.1, hg] at this
        cases this
  · have hw : ¬ WellFormedCol s := fun h => hm ((isColIdent_iff s).2 h)
    have : parseColIdent rs s = .err .badColIdTagValue := by simp [parseColIdent, hm]
    rw [this]
    exact ⟨by simp [hw], by simp [hw], by intro e h; cases h; exact .inl rfl, by simp⟩

/-- A list of columns is accepted exactly if it is not empty and each of its elements is. -/
theorem C29_col_idents (rs : RelSpace) (tag : List Bytes) (ids : List ColIdent) :
    parseColIdents rs tag = .ok ids ↔
      tag ≠ [] ∧ tag.map (parseColIdent rs) = ids.map .ok := by
  have key : ∀ (l : List Bytes) (ids : List ColIdent),
      parseColIdentsLoop rs l = .ok ids ↔ l.map (parseColIdent rs) = ids.map .ok := by
    intro l
    induction l with
    | nil =>
      intro ids
      cases ids <;> simp [parseColIdentsLoop]
    | cons v vs ih =>
      intro ids
      unfold parseColIdentsLoop
      cases hv : parseColIdent rs v with
      | ok id =>
        cases ids with
        | nil => cases parseColIdentsLoop rs vs <;> simp
        | cons i is =>
          have := ih is
          simp only [Res.bind_ok, List.map_cons, List.cons.injEq, hv, Res.ok.injEq]
          cases hvs : parseColIdentsLoop rs vs with
          | ok l =>
            rw [hvs] at this
            simp only [Res.map_ok, Res.ok.injEq, List.cons.injEq]
            rw [← this]; simp
          | err e => rw [hvs] at this; simp at this; simp [this]
          | panic => rw [hvs] at this; simp at this; simp [this]
      | err e => cases ids <;> simp [hv]
      | panic => cases ids <;> simp [hv]
  unfold parseColIdents
  cases tag with
  | nil => simp
  | cons v vs => simpa using key (v :: vs) ids

/-- The error of a list is that of its first bad element; an empty list has its own error. -/
theorem C29_col_idents_err (rs : RelSpace) (tag : List Bytes) (e : ECode) :
    parseColIdents rs tag = .err e ↔
      (tag = [] ∧ e = .missingTagColumnList) ∨
      ∃ pre v post, ∃ ids : List ColIdent, tag = pre ++ v :: post ∧ pre.map (parseColIdent rs) = ids.map .ok ∧
        parseColIdent rs v = .err e := by
  have key : ∀ (l : List Bytes), parseColIdentsLoop rs l = .err e ↔
      ∃ pre v post, ∃ ids : List ColIdent, l = pre ++ v :: post ∧ pre.map (parseColIdent rs) = ids.map .ok ∧
        parseColIdent rs v = .err e := by
    intro l
    induction l with
    | nil => simp [parseColIdentsLoop]
    | cons v vs ih =>
      unfold parseColIdentsLoop
      cases hv : parseColIdent rs v with
      | ok id =>
        simp only [Res.bind_ok]
        have : (parseColIdentsLoop rs vs).map (id :: ·) = Res.err e ↔
            parseColIdentsLoop rs vs = .err e := by
          cases parseColIdentsLoop rs vs <;> simp
        rw [this, ih]
        constructor
        · rintro ⟨pre, w, post, ids, rfl, h1, h2⟩
          exact ⟨v :: pre, w, post, id :: ids, rfl, by simp [hv, h1], h2⟩
        · rintro ⟨pre, w, post, ids, h0, h1, h2⟩
          cases pre with
          | nil => simp at h0; rw [h0.1, h2] at hv; cases hv
          | cons p ps =>
            cases ids with
            | nil => simp at h1
            | cons i is =>
              simp at h0 h1
              exact ⟨ps, w, post, is, h0.2, h1.2, h2⟩
      | err e' =>
        simp only [Res.bind_err, Res.err.injEq]
        constructor
        · rintro rfl; exact ⟨[], v, vs, [], rfl, rfl, hv⟩
        · rintro ⟨pre, w, post, ids, h0, h1, h2⟩
          cases pre with
          | nil => simp at h0; rw [← h0.1, hv] at h2; exact Res.err.inj h2
          | cons p ps =>
            cases ids with
            | nil => simp at h1
            | cons i is => simp at h0 h1; rw [← h0.1, hv] at h1; cases h1.1
      | panic => exact absurd hv (C29_reject rs v).2.2.2
  unfold parseColIdents
  cases tag with
  | nil => simp [eq_comm]
  | cons v vs => simpa using key (v :: vs)

/-- A column list is everything (`*` alone) or a list of columns; `*` is nothing else. -/
theorem C29_col_ident_list (rs : RelSpace) (tag : List Bytes) (l : ColIdentList) :
    parseColIdentList rs tag = .ok l ↔
      (tag = [b!"*"] ∧ l = { all := true, items := [] }) ∨
      (tag ≠ [b!"*"] ∧ l.all = false ∧ parseColIdents rs tag = .ok l.items) := by
  unfold parseColIdentList
  by_cases h : tag = [b!"*"]
  · subst h; simp; exact ⟨Eq.symm, Eq.symm⟩
  · simp only [h, if_false, false_and, ne_eq, not_false_eq_true, true_and, false_or]
    obtain ⟨al, it⟩ := l
    cases hp : parseColIdents rs tag with
    | ok ids => simp [eq_comm]
    | err e => simp
    | panic => simp

/-- Membership in a column list looks at the column's name only. -/
theorem C29_contains (l : ColIdentList) (c : ColIdent) :
    l.contains c = true ↔ l.all = true ∨ c.name ∈ l.items.map (·.name) := by
  unfold ColIdentList.contains
  rw [Bool.or_eq_true, List.any_eq_true, List.mem_map]
  simp

example : parseColIdent [(b!"u", { name := b!"user", alias := b!"u" })] b!"u.name" =
    .ok { qualifier := b!"u", name := b!"name" } := by decide +kernel
example : parseColIdent [(b!"u", { name := b!"user", alias := b!"u" })] b!"user.name" =
    .err .unknownColumnQualifier := by decide +kernel
example : parseColIdent [] b!"Current_Date" = .err .badColIdTagValue := by decide +kernel
example : parseColIdent [(b!"t", { name := b!"t" })] b!"t.true" =
    .ok { qualifier := b!"t", name := b!"true" } := by decide +kernel
example : parseColIdent [] b!"a-b" = .err .badColIdTagValue := by decide +kernel
example : parseColIdents [] [b!"a", b!"b c", b!"x.y"] = .err .badColIdTagValue := by decide +kernel
example : parseColIdentList [] [b!"*"] = .ok { all := true } := by decide +kernel
example : parseColIdentList [] [b!"*", b!"a"] = .err .badColIdTagValue := by decide +kernel

/-! ### C30 -/

/-- The key under which a relation is known in a query: its alias, else its name. -/
def relKey (id : RelIdent) : Bytes := if id.alias = [] then id.name else id.alias

/-- A history of declarations. -/
def declareAll : RelSpace → List RelIdent → R RelSpace
  | rs, [] => .ok rs
  | rs, id :: ids => (addToRelSpace rs id).bind fun rs' => declareAll rs' ids

theorem addToRelSpace_eq (rs : RelSpace) (id : RelIdent) :
    addToRelSpace rs id =
      match rs.get (relKey id) with
      | some _ => .err (if id.alias = [] then .conflictingRelName else .conflictingRelAlias)
      | none => .ok ((relKey id, id) :: rs) := by
  unfold addToRelSpace relKey
  cases h : id.alias with
  | nil => simp only [List.length_nil, gt_iff_lt, Nat.lt_irrefl, if_false, if_true]; cases rs.get id.name <;> rfl
  | cons c cs =>
    simp only [List.length_cons, gt_iff_lt, Nat.zero_lt_succ, if_true, reduceCtorEq, if_false]
    cases rs.get (c :: cs) <;> rfl

theorem get_none_iff (rs : RelSpace) (k : Bytes) : rs.get k = none ↔ k ∉ rs.map (·.1) := by
  unfold RelSpace.get
  induction rs with
  | nil => simp
  | cons p ps ih =>
    obtain ⟨a, b⟩ := p
    by_cases h : k = a
    · subst h; simp
    · have h' : (k == a) = false := by simp [h]
      simp only [List.lookup, h', ih, List.map_cons, List.mem_cons, not_or, h, not_false_eq_true,
        true_and]

theorem declareAll_ok (rs : RelSpace) (ids : List RelIdent) (rs' : RelSpace) :
    declareAll rs ids = .ok rs' ↔
      (∀ id ∈ ids, relKey id ∉ rs.map (·.1)) ∧ (ids.map relKey).Nodup ∧
      rs' = (ids.map fun id => (relKey id, id)).reverse ++ rs := by
  induction ids generalizing rs with
  | nil => simp [declareAll, eq_comm]
  | cons id ids ih =>
    unfold declareAll
    rw [addToRelSpace_eq]
    cases hg : rs.get (relKey id) with
    | some r =>
      have : relKey id ∈ rs.map (·.1) := by
        refine Classical.byContradiction fun h => ?_
        rw [(get_none_iff rs _).2 h] at hg; cases hg
      simp only [Res.bind_err, reduceCtorEq, false_iff, not_and]
      intro h
      exact absurd this (h id (by simp))
    | none =>
      have h0 := (get_none_iff rs _).1 hg
      simp only [Res.bind_ok, ih, List.map_cons, List.mem_cons, not_or, List.nodup_cons,
        List.reverse_cons, List.append_assoc, List.cons_append, List.nil_append, forall_eq_or_imp]
      constructor
      · rintro ⟨h1, h2, h3⟩
        refine ⟨⟨h0, fun a ha => (h1 a ha).2⟩, ⟨?_, h2⟩, h3⟩
        intro hm
        obtain ⟨b, hb, hb'⟩ := List.mem_map.1 hm
        exact (h1 b hb).1 hb'
      · rintro ⟨⟨_, h1⟩, ⟨h2, h3⟩, h4⟩
        refine ⟨fun a ha => ⟨?_, h1 a ha⟩, h3, h4⟩
        intro he
        exact h2 (List.mem_map.2 ⟨a, ha, he⟩)

/-- **C30**: a sequence of relation declarations is accepted exactly if no key (alias, or name of
an unaliased relation) is declared twice. -/
theorem C30_accept (ids : List RelIdent) :
    (∃ rs, declareAll [] ids = .ok rs) ↔ (ids.map relKey).Nodup := by
  constructor
  · rintro ⟨rs, h⟩; exact ((declareAll_ok [] ids rs).1 h).2.1
  · intro h; exact ⟨_, (declareAll_ok [] ids _).2 ⟨by simp, h, rfl⟩⟩

/-- In an accepted query, a key resolves to exactly the one relation declared under it. -/
theorem C30_resolve (ids : List RelIdent) (rs : RelSpace) (h : declareAll [] ids = .ok rs)
    (k : Bytes) (r : RelIdent) :
    rs.get k = some r ↔ r ∈ ids ∧ relKey r = k := by
  obtain ⟨_, hnd, rfl⟩ := (declareAll_ok [] ids rs).1 h
  simp only [List.append_nil]
  rw [← List.map_reverse]
  have hnd' : (ids.reverse.map relKey).Nodup := by
    rw [List.map_reverse]; exact List.pairwise_reverse.2 (hnd.imp Ne.symm)
  have hmem : r ∈ ids ↔ r ∈ ids.reverse := by simp
  rw [hmem]
  generalize ids.reverse = l at hnd'
  unfold RelSpace.get
  induction l with
  | nil => simp
  | cons a l ih =>
    simp only [List.map_cons, List.nodup_cons] at hnd'
    by_cases hk : k = relKey a
    · subst hk
      simp only [List.map_cons, List.lookup, beq_self_eq_true, Option.some.injEq, List.mem_cons]
      constructor
      · rintro rfl; exact ⟨.inl rfl, rfl⟩
      · rintro ⟨rfl | hr, he⟩
        · rfl
        · exact absurd (List.mem_map.2 ⟨r, hr, he⟩) hnd'.1
    · have h' : (k == relKey a) = false := by simp [hk]
      simp only [List.map_cons, List.lookup, h', ih hnd'.2, List.mem_cons]
      constructor
      · rintro ⟨h1, h2⟩; exact ⟨.inr h1, h2⟩
      · rintro ⟨rfl | h1, h2⟩
        · exact absurd h2.symm hk
        · exact ⟨h1, h2⟩

/-- A redeclaration is always rejected, whatever is declared in between and afterwards, and the
error says whether an alias or a name was repeated. -/
theorem C30_redeclare (pre mid post : List RelIdent) (a b : RelIdent) (hk : relKey a = relKey b)
    (hok : ((pre ++ a :: mid).map relKey).Nodup) :
    declareAll [] (pre ++ a :: mid ++ b :: post) =
      .err (if b.alias = [] then .conflictingRelName else .conflictingRelAlias) := by
  have happ : ∀ (l1 l2 : List RelIdent) (rs : RelSpace),
      declareAll rs (l1 ++ l2) = (declareAll rs l1).bind fun rs' => declareAll rs' l2 := by
    intro l1
    induction l1 with
    | nil => intro l2 rs; rfl
    | cons x xs ih =>
      intro l2 rs
      simp only [List.cons_append, declareAll]
      cases addToRelSpace rs x with
      | ok rs' => simp [ih]
      | err e => rfl
      | panic => rfl
  rw [happ]
  have h1 := (declareAll_ok [] (pre ++ a :: mid) _).2 ⟨by simp, hok, rfl⟩
  rw [h1, Res.bind_ok, declareAll, addToRelSpace_eq]
  have hr := (C30_resolve _ _ h1 (relKey b) a).2 ⟨by simp, hk⟩
  rw [hr]
  rfl

/-- A qualified column is accepted exactly if its qualifier is the key of a declared relation:
with an alias in force, the name of the relation is not a valid qualifier. -/
theorem C30_column (ids : List RelIdent) (rs : RelSpace) (h : declareAll [] ids = .ok rs)
    (q n : Bytes) (hq : Ident q) (hn : Ident n) (hr : ¬ Reserved (renderCol ⟨q, n⟩)) :
    parseColIdent rs (renderCol ⟨q, n⟩) = .ok ⟨q, n⟩ ↔ 
      ∃ r, (r ∈ ids ∧ relKey r = q) ∧ ∀ r', r' ∈ ids ∧ relKey r' = q → r' = r := by
  rw [parseColIdent_render rs ⟨q, n⟩ hn (.inr hq) hr, if_neg hq.ne_nil]
  simp only
  have := C30_resolve ids rs h q
  cases hg : rs.get q with
  | none =>
    simp only [reduceCtorEq, false_iff]
    rintro ⟨r, hr, _⟩
    have := (this r).2 hr
    rw [hg] at this; cases this
  | some r =>
    simp only [true_iff]
    refine ⟨r, (this r).1 hg, ?_⟩
    intro r' hr'
    have := (this r').2 hr'
    rw [hg] at this
    exact (Option.some.inj this).symm

example : declareAll [] [⟨b!"user", b!"u", []⟩, ⟨b!"user", [], []⟩, ⟨b!"post", b!"p", b!"s"⟩] =
    .ok [(b!"p", ⟨b!"post", b!"p", b!"s"⟩), (b!"user", ⟨b!"user", [], []⟩),
         (b!"u", ⟨b!"user", b!"u", []⟩)] := by decide +kernel
example : declareAll [] [⟨b!"user", b!"u", []⟩, ⟨b!"u", [], []⟩] = .err .conflictingRelName := by
  decide +kernel
example : declareAll [] [⟨b!"u", [], []⟩, ⟨b!"user", b!"u", []⟩] = .err .conflictingRelAlias := by
  decide +kernel

end Verif.Analysis
