import Verif.Analysis.Where
import Verif.Analysis.PropsIdent

/-
Properties C32 and C54: conditions and connectives of where structs alternate, and conditions are sound.
-/
namespace Verif.Analysis

/-! ### Statement -/

mutual
/-- A condition: not a connective, and well formed inside. -/
inductive IsCond : WItem → Prop
  | nested (n : Bytes) (l : List WItem) : WellFormed l → IsCond (.nested n l)
  | field (f : FieldCond) : IsCond (.field f)
  | column (c : ColCond) : IsCond (.column c)
  | between (b : BetweenCond) : IsCond (.between b)
/-- Nothing, or conditions with one connective between any two of them. -/
inductive WellFormed : List WItem → Prop
  | nil : WellFormed []
  | one (c : WItem) : IsCond c → WellFormed [c]
  | more (c d : WItem) (b : Bool) (l : List WItem) :
      IsCond c → WellFormed (d :: l) → WellFormed (c :: .bool b :: d :: l)
end

/-- The field's `sql` tag is neither missing nor `-`. -/
def tagged (h : FieldHdr) : Bool := h.tag.first b!"sql" ≠ [] && h.tag.first b!"sql" ≠ b!"-"

/-- The outermost struct's type belongs to another package. -/
def foreign (env : Env) (root : Option NamedInfo) : Bool :=
  root.any fun i => i.pkg.any fun p => p.path ≠ env.pkgPath

/-- The field takes part in the where clause. -/
def takesPart (env : Env) (root : Option NamedInfo) (h : FieldHdr) : Bool :=
  tagged h && (h.name = b!"_" || h.exported || !foreign env root)

/-- The field's `bool` tag says OR. -/
def saysOr (h : FieldHdr) : Bool := tolower (h.tag.first b!"bool") = b!"or"

mutual
/-- No field with an `sql` tag is blank without being a Column directive, at any depth. -/
def NoStray : Fields → Prop
  | .nil => True
  | .cons h t rest =>
    (tagged h = true → h.tag.first b!"sql" ≠ b!">" → h.name = b!"_" →
      isDirective b!"Column" t = .ok true) ∧
    (h.tag.first b!"sql" = b!">" → NoStrayTy t) ∧ NoStray rest
def NoStrayTy : Ty → Prop
  | .struct fs => NoStray fs
  | .named _ (.struct fs) => NoStray fs
  | _ => True
end

/-- The condition is the one of the field. -/
def Matches (rs : RelSpace) (h : FieldHdr) : WItem → Prop
  | .bool _ => False
  | .nested n _ => n = h.name ∧ h.tag.first b!"sql" = b!">"
  | .field f =>
    f.name = h.name ∧ h.name ≠ b!"_" ∧
      parseColIdent rs (parsePredicateExpr (h.tag.first b!"sql")).lhs = .ok f.colIdent
  | .column c =>
    h.name = b!"_" ∧ parseColIdent rs (parsePredicateExpr (h.tag.first b!"sql")).lhs = .ok c.lhs
  | .between b =>
    b.name = h.name ∧ h.name ≠ b!"_" ∧
      parseColIdent rs (parsePredicateExpr (h.tag.first b!"sql")).lhs = .ok b.colIdent

/-! ### Proof -/

theorem Res.bind_eq_ok {ε α β : Type} {r : Res ε α} {f : α → Res ε β} {b : β} :
    r.bind f = .ok b ↔ ∃ a, r = .ok a ∧ f a = .ok b := by
  cases r <;> simp [Res.bind]

theorem Res.map_eq_ok {ε α β : Type} {r : Res ε α} {f : α → β} {b : β} :
    r.map f = .ok b ↔ ∃ a, r = .ok a ∧ f a = b := by
  cases r <;> simp [Res.map]

theorem whereRelevant_ok {env : Env} {root : Option NamedInfo} {h : FieldHdr} {b : Bool}
    (e : whereRelevant env root h = .ok b) : b = takesPart env root h := by
  unfold whereRelevant isAccessible isImportedType at e
  unfold takesPart tagged foreign
  by_cases h1 : h.tag.first b!"sql" = b!"-" ∨ (h.tag.first b!"sql").length = 0
  · rw [if_pos h1] at e
    rcases h1 with h1 | h1
    · simp [h1] at e ⊢; exact e
    · simp [List.length_eq_zero_iff.1 h1] at e ⊢; exact e
  · rw [if_neg h1] at e
    have h2 : h.tag.first b!"sql" ≠ b!"-" := fun x => h1 (.inl x)
    have h3 : h.tag.first b!"sql" ≠ [] := fun x => h1 (.inr (by rw [x]; rfl))
    by_cases h4 : h.name = b!"_"
    · rw [if_pos h4] at e; simp at e; simp [e, h2, h3, h4]
    · rw [if_neg h4, if_neg h4] at e
      by_cases h5 : h.exported = true
      · rw [if_pos h5] at e; simp at e; simp [e, h2, h3, h5]
      · rw [if_neg h5] at e
        cases root with
        | none => simp at e; simp [e, h2, h3]
        | some i =>
          simp only at e
          cases hp : i.pkg with
          | none => rw [hp] at e; simp at e
          | some p => rw [hp] at e; simp at e; simp [← e, h2, h3, h4, h5, hp]

theorem whereBool_ok {items : List WItem} {h : FieldHdr} {bs : List WItem}
    (e : whereBool items h = .ok bs) : bs = if items.length = 0 then [] else [.bool (saysOr h)] := by
  unfold whereBool at e
  unfold saysOr
  split at e
  · next h1 => simp at e; rw [if_pos h1, e]
  · next h1 =>
    rw [if_neg h1]
    split at e
    · next h2 => simp at e; rw [← e, List.length_eq_zero_iff.1 h2]; rfl
    · split at e
      · next h2 => simp at e; rw [← e, h2]; rfl
      · split at e
        · next h2 => simp at e; rw [← e, h2]; rfl
        · simp at e

theorem whereLeaf_ok {env : Env} {rs : RelSpace} {h : FieldHdr} {t : Ty} {o : Option WItem}
    (e : whereLeaf env rs h t = .ok o)
    (hs : h.name = b!"_" → isDirective b!"Column" t = .ok true) :
    ∃ c, o = some c ∧ IsCond c ∧ Matches rs h c := by
  unfold whereLeaf at e
  simp only at e
  split at e
  · next hn =>
    rw [whereDirective, hs hn] at e
    simp only [Res.bind_ok, if_true, Res.bind_eq_ok, Res.map_eq_ok] at e
    obtain ⟨lhs, h1, c, h2, h3⟩ := e
    refine ⟨.column c, h3.symm, .column c, hn, ?_⟩
    have : c.lhs = lhs := by
      unfold colCond at h2
      split at h2
      · simp only [Res.bind_eq_ok] at h2
        obtain ⟨_, _, _, _, _, _, h2⟩ := h2
        simp at h2; rw [← h2]
      · simp only [Res.bind_eq_ok] at h2
        obtain ⟨_, _, _, _, h2⟩ := h2
        simp at h2; rw [← h2]
    rw [this]; exact h1
  · next hn =>
    split at e
    · unfold whereBetween at e
      simp only [Res.bind_eq_ok, Res.map_eq_ok] at e
      obtain ⟨_, _, b, _, cid, h1, h2⟩ := e
      exact ⟨_, h2.symm, .between _, rfl, hn, h1⟩
    · unfold whereField at e
      simp only [Res.bind_eq_ok] at e
      obtain ⟨cid, h1, p, _, _, _, _, _, _, _, _, _, h2⟩ := e
      simp only [Res.ok.injEq] at h2
      exact ⟨_, h2.symm, .field _, rfl, hn, h1⟩

/-- The connective and the condition of a field. -/
def weave (l : List (FieldHdr × WItem)) : List WItem :=
  l.flatMap fun p => [.bool (saysOr p.1), p.2]

theorem weave_wf (l : List (FieldHdr × WItem)) (h : ∀ p ∈ l, IsCond p.2) :
    WellFormed ((weave l).drop 1) := by
  induction l with
  | nil => exact .nil
  | cons p l ih =>
    have hp := h p (by simp)
    have ih := ih fun q hq => h q (by simp [hq])
    cases l with
    | nil => exact .one _ hp
    | cons q l => exact .more _ _ _ _ hp ih

mutual
theorem whereItems_spec (env : Env) (rs : RelSpace) (root : Option NamedInfo) (acc : List WItem)
    (fs : Fields) (out : List WItem) (ns : NoStray fs)
    (e : whereItems env rs root acc fs = .ok out) :
    ∃ l : List (FieldHdr × WItem),
      l.map (·.1) = (fs.toList.map (·.1)).filter (takesPart env root) ∧
      (∀ p ∈ l, IsCond p.2 ∧ Matches rs p.1 p.2) ∧
      out = acc ++ (weave l).drop (if acc.length = 0 then 1 else 0) :=
  match fs with
  | .nil => by
    rw [whereItems] at e
    simp only [Res.ok.injEq] at e
    exact ⟨[], rfl, by simp, by simp [e, weave]⟩
  | .cons h t rest => by
    rw [whereItems] at e
    rw [NoStray] at ns
    obtain ⟨ns1, ns2, ns3⟩ := ns
    rw [Res.bind_eq_ok] at e
    obtain ⟨rel, hr, e⟩ := e
    have hr := whereRelevant_ok hr
    by_cases hrel : rel = true
    · rw [if_pos hrel, Res.bind_eq_ok] at e
      obtain ⟨bs, hb, e⟩ := e
      have hb := whereBool_ok hb
      have ht : tagged h = true := by
        rw [hrel] at hr; unfold takesPart at hr; simp at hr; exact hr.1
      have finish : ∀ c : WItem, IsCond c → Matches rs h c →
          whereItems env rs root (acc ++ bs ++ [c]) rest = .ok out →
          ∃ l : List (FieldHdr × WItem),
            l.map (·.1) = ((Fields.cons h t rest).toList.map (·.1)).filter (takesPart env root) ∧
            (∀ p ∈ l, IsCond p.2 ∧ Matches rs p.1 p.2) ∧
            out = acc ++ (weave l).drop (if acc.length = 0 then 1 else 0) := by
        intro c hc hm e
        obtain ⟨l, h1, h2, h3⟩ := whereItems_spec env rs root _ rest out ns3 e
        refine ⟨(h, c) :: l, ?_, ?_, ?_⟩
        · rw [hrel] at hr
          simp [Fields.toList, ← hr, h1]
        · intro p hp
          rcases List.mem_cons.1 hp with rfl | hp
          · exact ⟨hc, hm⟩
          · exact h2 p hp
        · rw [h3, hb]
          by_cases h0 : acc.length = 0
          · simp [h0, weave]
          · simp [h0, weave]
      split at e
      · next hg =>
        rw [Res.bind_eq_ok] at e
        obtain ⟨sub, hs, e⟩ := e
        exact finish _ (.nested _ _ (whereNested_wf env rs root t sub (ns2 hg) hs)) ⟨rfl, hg⟩ e
      · next hg =>
        rw [Res.bind_eq_ok] at e
        obtain ⟨o, ho, e⟩ := e
        obtain ⟨c, rfl, hc, hm⟩ := whereLeaf_ok ho (ns1 ht hg)
        exact finish c hc hm e
    · rw [if_neg hrel] at e
      obtain ⟨l, h1, h2, h3⟩ := whereItems_spec env rs root _ rest out ns3 e
      refine ⟨l, ?_, h2, h3⟩
      have : takesPart env root h = false := by rw [← hr]; simpa using hrel
      simp [Fields.toList, this, h1]
theorem whereNested_wf (env : Env) (rs : RelSpace) (root : Option NamedInfo) (t : Ty)
    (out : List WItem) (ns : NoStrayTy t) (e : whereNested env rs root t = .ok out) :
    WellFormed out :=
  match t with
  | .struct fs => by
    rw [whereNested] at e; rw [NoStrayTy] at ns
    obtain ⟨l, -, h2, h3⟩ := whereItems_spec env rs root [] fs out ns e
    rw [h3]; exact weave_wf l fun p hp => (h2 p hp).1
  | .named _ (.struct fs) => by
    rw [whereNested] at e; rw [NoStrayTy] at ns
    obtain ⟨l, -, h2, h3⟩ := whereItems_spec env rs root [] fs out ns e
    rw [h3]; exact weave_wf l fun p hp => (h2 p hp).1
  | .basic _ _ | .ptr _ | .slice _ | .array _ _ | .map _ _ | .chan | .func _ _ | .iface _ _
  | .named _ (.basic _ _) | .named _ (.ptr _) | .named _ (.slice _) | .named _ (.array _ _)
  | .named _ (.map _ _) | .named _ .chan | .named _ (.func _ _) | .named _ (.iface _ _)
  | .named _ (.named _ _) => by simp [whereNested] at e
end

/-- C32: in an accepted where struct without stray blank fields, conditions and connectives strictly
alternate at every level, beginning and ending with a condition. -/
theorem C32_alternates (env : Env) (rs : RelSpace) (root : Option NamedInfo) (fs : Fields)
    (out : List WItem) (ns : NoStray fs) (e : whereItems env rs root [] fs = .ok out) :
    WellFormed out := by
  obtain ⟨l, -, h2, h3⟩ := whereItems_spec env rs root [] fs out ns e
  rw [h3]; exact weave_wf l fun p hp => (h2 p hp).1

/-- C32: the conditions are those of the fields that take part, in order, and the connective before one
is OR iff the field's `bool` tag says so. -/
theorem C32_connectives (env : Env) (rs : RelSpace) (root : Option NamedInfo) (fs : Fields)
    (out : List WItem) (ns : NoStray fs) (e : whereItems env rs root [] fs = .ok out) :
    ∃ l : List (FieldHdr × WItem),
      l.map (·.1) = (fs.toList.map (·.1)).filter (takesPart env root) ∧
      (∀ p ∈ l, Matches rs p.1 p.2) ∧
      out = (l.flatMap fun p => [.bool (saysOr p.1), p.2]).drop 1 := by
  obtain ⟨l, h1, h2, h3⟩ := whereItems_spec env rs root [] fs out ns e
  exact ⟨l, h1, fun p hp => (h2 p hp).2, h3⟩

/-- C32: a `bool` tag other than `and`, `or` and blank is an error, except on the first field. -/
theorem C32_bad_bool (acc : List WItem) (h : FieldHdr) :
    whereBool acc h = .err .badBoolTagValue ↔
      acc ≠ [] ∧ tolower (h.tag.first b!"bool") ∉ [[], b!"or", b!"and"] := by
  unfold whereBool
  by_cases h0 : acc = []
  · simp [h0]
  · simp only [h0, List.length_eq_zero_iff, if_false, ne_eq, not_false_eq_true, true_and,
      List.mem_cons, List.not_mem_nil, or_false, not_or]
    split
    · next h1 => simp [h1]
    · next h1 =>
      split
      · next h2 => simp [h2]
      · next h2 =>
        split
        · next h3 => simp [h3]
        · next h3 => simp [h1, h2, h3]

mutual
/-- Inside a condition, too. -/
def linkedItem : WItem → Bool
  | .nested _ l => linked true l
  | _ => true
/-- Every condition but the first comes right after a connective; `ok` says that one may follow. -/
def linked (ok : Bool) : List WItem → Bool
  | [] => true
  | .bool _ :: l => linked true l
  | i :: l => ok && linkedItem i && linked false l
end

theorem linked_bool (b ok : Bool) : ∀ l : List WItem, linked ok l = true → linked ok (l ++ [.bool b]) = true
  | [], _ => by simp [linked]
  | i :: l, h => by
    cases i with
    | bool c => simp only [linked, List.cons_append] at h ⊢; exact linked_bool b true l h
    | _ =>
      simp only [linked, List.cons_append, Bool.and_eq_true] at h ⊢
      exact ⟨h.1, linked_bool b false l h.2⟩

theorem linked_snoc (b ok : Bool) (x : WItem) (hx : linkedItem x = true) : ∀ l : List WItem,
    linked ok l = true → linked ok (l ++ [.bool b, x]) = true
  | [], _ => by
    simp only [List.nil_append, linked]
    cases x <;> simp_all [linked]
  | i :: l, h => by
    cases i with
    | bool c => simp only [linked, List.cons_append] at h ⊢; exact linked_snoc b true x hx l h
    | _ =>
      simp only [linked, List.cons_append, Bool.and_eq_true] at h ⊢
      exact ⟨h.1, linked_snoc b false x hx l h.2⟩

theorem linked_one (x : WItem) (hx : linkedItem x = true) : linked true [x] = true := by
  cases x <;> simp_all [linked]

theorem linked_add {acc : List WItem} {h : FieldHdr} {bs : List WItem} {x : WItem}
    (ha : linked true acc = true) (hb : whereBool acc h = .ok bs) (hx : linkedItem x = true) :
    linked true (acc ++ bs ++ [x]) = true := by
  rw [whereBool_ok hb]
  split
  · next h0 => rw [List.length_eq_zero_iff.1 h0]; exact linked_one x hx
  · rw [List.append_assoc]; exact linked_snoc _ _ x hx acc ha

theorem whereLeaf_linked {env : Env} {rs : RelSpace} {h : FieldHdr} {t : Ty} {x : WItem}
    (e : whereLeaf env rs h t = .ok (some x)) : linkedItem x = true := by
  unfold whereLeaf at e
  simp only at e
  split at e
  · rw [whereDirective, Res.bind_eq_ok] at e
    obtain ⟨d, -, e⟩ := e
    split at e
    · simp only [Res.bind_eq_ok, Res.map_eq_ok] at e
      obtain ⟨_, _, c, _, h3⟩ := e
      cases h3
      simp [linkedItem]
    · simp at e
  · split at e
    · unfold whereBetween at e
      simp only [Res.bind_eq_ok, Res.map_eq_ok] at e
      obtain ⟨_, _, b, _, cid, h1, h2⟩ := e
      cases h2
      simp [linkedItem]
    · unfold whereField at e
      simp only [Res.bind_eq_ok] at e
      obtain ⟨cid, h1, p, _, _, _, _, _, _, _, _, _, h2⟩ := e
      cases h2
      simp [linkedItem]

mutual
theorem whereItems_linked (env : Env) (rs : RelSpace) (root : Option NamedInfo) (acc : List WItem)
    (fs : Fields) (out : List WItem) (ha : linked true acc = true)
    (e : whereItems env rs root acc fs = .ok out) : linked true out = true :=
  match fs with
  | .nil => by
    rw [whereItems] at e
    simp only [Res.ok.injEq] at e
    rw [← e]; exact ha
  | .cons h t rest => by
    rw [whereItems, Res.bind_eq_ok] at e
    obtain ⟨rel, -, e⟩ := e
    split at e
    · rw [Res.bind_eq_ok] at e
      obtain ⟨bs, hb, e⟩ := e
      split at e
      · rw [Res.bind_eq_ok] at e
        obtain ⟨sub, hs, e⟩ := e
        refine whereItems_linked env rs root _ rest out (linked_add ha hb ?_) e
        rw [linkedItem]
        exact whereNested_linked env rs root t sub hs
      · rw [Res.bind_eq_ok] at e
        obtain ⟨o, ho, e⟩ := e
        refine whereItems_linked env rs root _ rest out ?_ e
        cases o with
        | none =>
          rw [whereBool_ok hb]
          split
          · simpa using ha
          · simpa using linked_bool _ _ acc ha
        | some x =>
          exact linked_add ha hb (whereLeaf_linked ho)
    · exact whereItems_linked env rs root _ rest out ha e
theorem whereNested_linked (env : Env) (rs : RelSpace) (root : Option NamedInfo) (t : Ty)
    (out : List WItem) (e : whereNested env rs root t = .ok out) : linked true out = true :=
  match t with
  | .struct fs => by
    rw [whereNested] at e
    exact whereItems_linked env rs root [] fs out (by simp [linked]) e
  | .named _ (.struct fs) => by
    rw [whereNested] at e
    exact whereItems_linked env rs root [] fs out (by simp [linked]) e
  | .basic _ _ | .ptr _ | .slice _ | .array _ _ | .map _ _ | .chan | .func _ _ | .iface _ _
  | .named _ (.basic _ _) | .named _ (.ptr _) | .named _ (.slice _) | .named _ (.array _ _)
  | .named _ (.map _ _) | .named _ .chan | .named _ (.func _ _) | .named _ (.iface _ _)
  | .named _ (.named _ _) => by simp [whereNested] at e
end

/-- C32: in any accepted where struct, every condition but the first comes right after a connective. -/
theorem C32_linked (env : Env) (rs : RelSpace) (root : Option NamedInfo) (fs : Fields)
    (out : List WItem) (e : whereItems env rs root [] fs = .ok out) : linked true out = true :=
  whereItems_linked env rs root [] fs out (by simp [linked]) e

/-! ### C54: conditions are sound -/

/-- A field is compared by a predicate that takes one value; a quantifier goes with a quantifiable
predicate and a slice or array, a list predicate goes with a slice or array. -/
def FieldCond.Sound (f : FieldCond) : Prop :=
  ∃ p, f.pred = some p ∧ p.isUnary = false ∧ p.isRange = false ∧
    (f.quant ≠ none → p.canQuantify = true ∧ f.type.isSequence = true) ∧
    (p.isArray = true → f.type.isSequence = true)

/-- A column with a name, or a literal that is not empty. -/
def Rhs.Filled : Rhs → Prop
  | .none => True
  | .column c => c.name ≠ []
  | .literal s => s ≠ []

/-- A column is compared with something by a predicate that takes a value, or tested by a unary
predicate. -/
def ColCond.Sound (c : ColCond) : Prop :=
  ∃ p, c.pred = some p ∧ (p.isUnary = true ↔ c.rhs = .none) ∧
    (c.quant ≠ none → p.canQuantify = true) ∧ c.rhs.Filled

inductive SoundItem : WItem → Prop
  | bool (b : Bool) : SoundItem (.bool b)
  | nested (n : Bytes) (l : List WItem) : (∀ i ∈ l, SoundItem i) → SoundItem (.nested n l)
  | field (f : FieldCond) : f.Sound → SoundItem (.field f)
  | column (c : ColCond) : c.Sound → SoundItem (.column c)
  | between (b : BetweenCond) (p : Pred) : b.pred = some p → p.isRange = true →
      SoundItem (.between b)

/-- The operators an expression can contain. -/
def exprOps : List Bytes :=
  [b!"=", b!"!=", b!"!~", b!"!~*", b!"<", b!"<=", b!"<>", b!">", b!">=", b!"~", b!"~*"] ++
  predicateAdjectives.map (b!"not" ++ ·) ++ predicateAdjectives.map (b!"is" ++ ·)

theorem exprOps_pred : ∀ op ∈ exprOps,
    (stringToPredicate op).isSome = true ∧ trim op = op ∧ op ≠ [] ∧
    (hasSub b!"between" op = true → (stringToPredicate op).any (·.isRange) = true) ∧
    (hasSub b!"between" op = false → (stringToPredicate op).any (·.isRange) = false) := by decide +kernel

theorem findAdj_mem (x : Bytes) (l : List Bytes) (adj : Bytes) (h : findAdj x l = some adj) :
    adj ∈ l := by
  induction l with
  | nil => simp [findAdj] at h
  | cons a l ih =>
    rw [findAdj] at h
    split at h
    · simp at h; simp [h]
    · simp [ih h]

theorem exprStep_op {c : Char} {r cop rhs : Bytes} (h : exprStep c r = .hit cop rhs) :
    cop ∈ exprOps := by
  unfold exprStep at h
  split at h
  · simp at h; rw [← h.1]; decide
  split at h
  · unfold bangStep at h
    split at h <;> simp at h <;> rw [← h.1] <;> decide
  split at h
  · unfold ltStep at h
    split at h <;> simp at h <;> rw [← h.1] <;> decide
  split at h
  · unfold gtStep at h
    split at h <;> simp at h <;> rw [← h.1] <;> decide
  split at h
  · unfold tildeStep at h
    split at h <;> simp at h <;> rw [← h.1] <;> decide
  split at h
  · unfold wordStep at h
    simp only at h
    split at h
    · simp at h
    · next pred1 pred2 hp =>
      split at h
      · simp at h
      · next adj ha =>
        simp only [Step.hit.injEq] at h
        have hm := findAdj_mem _ _ _ ha
        rw [← h.1]
        unfold exprOps
        split at hp
        · next hx =>
          simp only [Option.some.injEq, Prod.mk.injEq] at hp
          rw [← hp.1, hx.2]
          exact List.mem_append_left _ (List.mem_append_right _ (List.mem_map_of_mem hm))
        · split at hp
          · next hx =>
            simp only [Option.some.injEq, Prod.mk.injEq] at hp
            rw [← hp.1, hx.2]
            exact List.mem_append_right _ (List.mem_map_of_mem hm)
          · simp at hp
  · simp at h

theorem scanExpr_op {s lhs cop rhs : Bytes} (h : scanExpr s = some (lhs, cop, rhs)) :
    cop ∈ exprOps := by
  induction s generalizing lhs with
  | nil => simp [scanExpr] at h
  | cons c s ih =>
    rw [scanExpr] at h
    cases he : exprStep c s with
    | cont =>
      rw [he] at h
      simp only [Option.map_eq_some_iff] at h
      obtain ⟨⟨l, o, r⟩, h1, h2⟩ := h
      simp only [Prod.mk.injEq] at h2
      exact ih (lhs := l) (by rw [h1, ← h2.2.1, ← h2.2.2])
    | stop => rw [he] at h; simp at h
    | hit a b =>
      rw [he] at h
      simp only [Option.some.injEq, Prod.mk.injEq] at h
      rw [← h.2.1]
      exact exprStep_op he

/-- The parsed operator is empty, and then there is nothing to the right of it, or one of the
operators. -/
theorem parse_op (s : Bytes) :
    ((parsePredicateExpr s).op = [] ∧ (parsePredicateExpr s).rhs = [] ∧
      (parsePredicateExpr s).quant = []) ∨ (parsePredicateExpr s).op ∈ exprOps := by
  unfold parsePredicateExpr
  split
  · simp
  · next lhs cop rhs h =>
    split
    · simp
    · right
      have := scanExpr_op h
      simp only
      rw [(exprOps_pred _ this).2.1]; exact this

theorem failIf_ok {c : Bool} {e : ECode} {u : Unit} (h : failIf c e = .ok u) : c = false := by
  cases c <;> simp [failIf] at h ⊢

theorem parseRhs_ne {rs : RelSpace} {s : Bytes} {r : Rhs} (h : parseRhs rs s = .ok r) :
    r ≠ .none := by
  unfold parseRhs at h
  split at h
  · simp at h; simp [← h]
  · split at h
    · simp at h; simp [← h]
    · simp at h
  · simp at h

theorem parseRhs_filled {rs : RelSpace} {s : Bytes} {r : Rhs} (hs : s.length > 0)
    (h : parseRhs rs s = .ok r) : r.Filled := by
  unfold parseRhs at h
  split at h
  · next c hc =>
    simp only [Res.ok.injEq] at h
    rw [← h]
    obtain ⟨a, as, hn, _⟩ := ((C29_col_ident rs s c).1 hc).1
    simp [Rhs.Filled, hn]
  · split at h
    · simp only [Res.ok.injEq] at h
      rw [← h]
      exact List.length_pos_iff.1 hs
    · simp at h
  · simp at h

theorem colCond_sound {rs : RelSpace} {lhs : ColIdent} {s : Bytes} {c : ColCond}
    (h : colCond rs lhs (parsePredicateExpr s) = .ok c) : c.Sound := by
  unfold colCond at h
  split at h
  · next h0 =>
    have hop : (parsePredicateExpr s).op ∈ exprOps := by
      rcases parse_op s with h1 | h1
      · rw [h1.2.1] at h0; simp at h0
      · exact h1
    obtain ⟨p, hp⟩ := Option.isSome_iff_exists.1 (exprOps_pred _ hop).1
    simp only [Res.bind_eq_ok] at h
    obtain ⟨r, hr, _, h1, _, h2, h3⟩ := h
    have h1 := failIf_ok h1
    have h2 := failIf_ok h2
    simp only [Res.ok.injEq] at h3
    rw [hp] at h1 h2 h3
    simp only [predIs, Option.any_some] at h1 h2
    refine ⟨p, by rw [← h3], ?_, ?_, by rw [← h3]; exact parseRhs_filled h0 hr⟩
    · rw [h1, ← h3]; simpa using parseRhs_ne hr
    · rw [← h3]
      intro hq
      simp only [ne_eq] at hq
      cases hquant : stringToQuantifier (parsePredicateExpr s).quant with
      | none => exact absurd hquant hq
      | some q => rw [hquant] at h2; simpa using h2
  · simp only [Res.bind_eq_ok] at h
    obtain ⟨_, h1, _, _, h3⟩ := h
    have h1 := failIf_ok h1
    simp only [Bool.not_eq_false', predIs, Option.any_eq_true] at h1
    obtain ⟨p, hp, hu⟩ := h1
    simp only [Res.ok.injEq] at h3
    exact ⟨p, by rw [← h3]; exact hp, by rw [← h3]; simp [hu], by rw [← h3]; simp, by rw [← h3]; trivial⟩

theorem whereLeaf_sound {env : Env} {rs : RelSpace} {h : FieldHdr} {t : Ty} {c : WItem}
    (e : whereLeaf env rs h t = .ok (some c)) : SoundItem c := by
  unfold whereLeaf at e
  simp only at e
  split at e
  · rw [whereDirective, Res.bind_eq_ok] at e
    obtain ⟨d, -, e⟩ := e
    split at e
    · simp only [Res.bind_eq_ok, Res.map_eq_ok] at e
      obtain ⟨lhs, h1, c', h2, h3⟩ := e
      simp only [Option.some.injEq] at h3
      rw [← h3]
      exact .column _ (colCond_sound h2)
    · simp at e
  · split at e
    · next hb =>
      unfold whereBetween at e
      simp only [Res.bind_eq_ok, Res.map_eq_ok, Option.some.injEq] at e
      obtain ⟨_, _, b, _, cid, h1, h2⟩ := e
      rcases parse_op (h.tag.first b!"sql") with h3 | h3
      · rw [h3.1] at hb; simp [hasSub] at hb
      · have := (exprOps_pred _ h3).2.2.2.1 hb
        rw [Option.any_eq_true] at this
        obtain ⟨p, hp, hr⟩ := this
        rw [← h2]
        exact .between _ p hp hr
    · next hnb =>
      unfold whereField at e
      simp only [Res.bind_eq_ok] at e
      obtain ⟨cid, h1, p, _, _, f1, _, f2, _, f3, _, f4, h2⟩ := e
      have f1 := failIf_ok f1
      have f2 := failIf_ok f2
      have f3 := failIf_ok f3
      have f4 := failIf_ok f4
      simp only [Res.ok.injEq, Option.some.injEq] at h2
      rw [← h2]
      have hpred : (stringToPredicate (if (parsePredicateExpr (h.tag.first b!"sql")).op.length = 0
          then b!"=" else (parsePredicateExpr (h.tag.first b!"sql")).op)).isSome = true := by
        rcases parse_op (h.tag.first b!"sql") with h3 | h3
        · rw [h3.1]; rfl
        · rw [if_neg (by simpa using (exprOps_pred _ h3).2.2.1)]
          exact (exprOps_pred _ h3).1
      obtain ⟨q, hq⟩ := Option.isSome_iff_exists.1 hpred
      have hrange : q.isRange = false := by
        rcases parse_op (h.tag.first b!"sql") with h3 | h3
        · rw [h3.1] at hq
          cases hq
          rfl
        · rw [if_neg (by simpa using (exprOps_pred _ h3).2.2.1)] at hq
          have := (exprOps_pred _ h3).2.2.2.2 (by simpa using hnb)
          rw [hq] at this
          exact this
      rw [hq] at f1 f2 f4
      simp only [predIs, Option.any_some] at f1 f2 f4
      refine .field _ ⟨q, hq, f1, hrange, ?_, ?_⟩
      · intro hn
        simp only [ne_eq] at hn
        cases hquant : stringToQuantifier (parsePredicateExpr (h.tag.first b!"sql")).quant with
        | none => exact absurd hquant hn
        | some k =>
          rw [hquant] at f2 f3
          simp at f2 f3
          exact ⟨f2, f3⟩
      · intro ha
        rw [ha] at f4
        simpa using f4

mutual
theorem whereItems_sound (env : Env) (rs : RelSpace) (root : Option NamedInfo) (acc : List WItem)
    (fs : Fields) (out : List WItem) (ha : ∀ i ∈ acc, SoundItem i)
    (e : whereItems env rs root acc fs = .ok out) : ∀ i ∈ out, SoundItem i :=
  match fs with
  | .nil => by
    rw [whereItems] at e
    simp only [Res.ok.injEq] at e
    rw [← e]; exact ha
  | .cons h t rest => by
    rw [whereItems, Res.bind_eq_ok] at e
    obtain ⟨rel, -, e⟩ := e
    split at e
    · rw [Res.bind_eq_ok] at e
      obtain ⟨bs, hb, e⟩ := e
      have hbs : ∀ i ∈ bs, SoundItem i := by
        rw [whereBool_ok hb]
        intro i hi
        split at hi
        · simp at hi
        · simp at hi; rw [hi]; exact .bool _
      split at e
      · rw [Res.bind_eq_ok] at e
        obtain ⟨sub, hs, e⟩ := e
        refine whereItems_sound env rs root _ rest out ?_ e
        intro i hi
        simp only [List.append_assoc, List.mem_append, List.mem_singleton] at hi
        rcases hi with hi | hi | hi
        · exact ha i hi
        · exact hbs i hi
        · rw [hi]; exact .nested _ _ (whereNested_sound env rs root t sub hs)
      · rw [Res.bind_eq_ok] at e
        obtain ⟨o, ho, e⟩ := e
        refine whereItems_sound env rs root _ rest out ?_ e
        intro i hi
        simp only [List.append_assoc, List.mem_append, Option.mem_toList] at hi
        rcases hi with hi | hi | hi
        · exact ha i hi
        · exact hbs i hi
        · rw [hi] at ho; exact whereLeaf_sound ho
    · exact whereItems_sound env rs root _ rest out ha e
theorem whereNested_sound (env : Env) (rs : RelSpace) (root : Option NamedInfo) (t : Ty)
    (out : List WItem) (e : whereNested env rs root t = .ok out) : ∀ i ∈ out, SoundItem i :=
  match t with
  | .struct fs => by
    rw [whereNested] at e
    exact whereItems_sound env rs root [] fs out (by simp) e
  | .named _ (.struct fs) => by
    rw [whereNested] at e
    exact whereItems_sound env rs root [] fs out (by simp) e
  | .basic _ _ | .ptr _ | .slice _ | .array _ _ | .map _ _ | .chan | .func _ _ | .iface _ _
  | .named _ (.basic _ _) | .named _ (.ptr _) | .named _ (.slice _) | .named _ (.array _ _)
  | .named _ (.map _ _) | .named _ .chan | .named _ (.func _ _) | .named _ (.iface _ _)
  | .named _ (.named _ _) => by simp [whereNested] at e
end

/-- C54: every condition of an accepted where struct, at any depth, is sound. -/
theorem C54_where (env : Env) (rs : RelSpace) (root : Option NamedInfo) (fs : Fields)
    (out : List WItem) (e : whereItems env rs root [] fs = .ok out) : ∀ i ∈ out, SoundItem i :=
  whereItems_sound env rs root [] fs out (by simp) e

/-- The fields of `struct { A int "sql:a"; _ string "sql:b"; C int "sql:c" }`. -/
def strayFields : Fields := .ofList
  [({ name := b!"A", tag := [(b!"sql", [b!"a"])] }, .basic .int b!"int"),
   ({ name := b!"_", tag := [(b!"sql", [b!"b"])] }, .basic .string b!"string"),
   ({ name := b!"C", tag := [(b!"sql", [b!"c"])] }, .basic .int b!"int")]

def intCond (n c : Bytes) : WItem :=
  .field { name := n, type := .leaf { kind := .int }, colIdent := { name := c }, pred := some .isEQ }

/-- C32 fails with a blank field that is no Column directive: two connectives follow each other, or a
connective ends the list. -/
theorem C32_not_stray :
    whereItems { pkgPath := b!"p" } [] none [] strayFields =
      .ok [intCond b!"A" b!"a", .bool false, .bool false, intCond b!"C" b!"c"] ∧
    whereItems { pkgPath := b!"p" } [] none []
      (.ofList (strayFields.toList.take 2)) = .ok [intCond b!"A" b!"a", .bool false] :=
  ⟨rfl, rfl⟩

theorem C32_not_stray_wf :
    ¬ WellFormed [intCond b!"A" b!"a", .bool false, .bool false, intCond b!"C" b!"c"] ∧
    ¬ WellFormed [intCond b!"A" b!"a", .bool false] := by
  constructor
  · intro h
    cases h with
    | more _ _ _ _ _ h => cases h
  · intro h; cases h

/-- `struct { A int "sql:a"; G struct { B, C int } "sql:>" "bool:or" }`. -/
def groupFields : Fields := .ofList
  [({ name := b!"A", tag := [(b!"sql", [b!"a"])] }, .basic .int b!"int"),
   ({ name := b!"x", exported := false }, .basic .int b!"int"),
   ({ name := b!"G", tag := [(b!"sql", [b!">"]), (b!"bool", [b!"OR"])] },
    .struct (.ofList
      [({ name := b!"B", tag := [(b!"sql", [b!"b"])] }, .basic .int b!"int"),
       ({ name := b!"C", tag := [(b!"sql", [b!"c"])] }, .basic .int b!"int")]))]

example : whereItems { pkgPath := b!"p" } [] none [] groupFields =
    .ok [intCond b!"A" b!"a", .bool true,
      .nested b!"G" [intCond b!"B" b!"b", .bool false, intCond b!"C" b!"c"]] := rfl
example : NoStray groupFields := by
  simp [groupFields, Fields.ofList, NoStray, NoStrayTy]

end Verif.Analysis
