import Verif.Analysis.Fields

/-
Property C38: the keys of filter columns.
-/
namespace Verif.Analysis

/-- Texts with a separator between them. -/
def sepJoin (sep : Bytes) (ps : List Bytes) : Bytes := (ps.intersperse sep).flatten

theorem sepJoin_cons (sep p : Bytes) (ps : List Bytes) (h : ps ≠ []) :
    sepJoin sep (p :: ps) = p ++ sep ++ sepJoin sep ps := by
  cases ps with
  | nil => exact absurd rfl h
  | cons q qs => simp [sepJoin, List.intersperse]

theorem joinStrs_eq (sep : Bytes) (ps : List Bytes) : joinStrs sep ps = sepJoin sep ps := by
  induction ps with
  | nil => rfl
  | cons p ps ih =>
    cases ps with
    | nil => simp [joinStrs, sepJoin]
    | cons q qs => rw [joinStrs, ih, sepJoin_cons sep p (q :: qs) (by simp)]

/-- The names from the outermost field to the field itself. -/
def namePath (name : Bytes) (sel : List SelNode) : List Bytes := sel.map (·.name) ++ [name]

/-- The values of a tag from the outermost field to the field itself. -/
def tagPath (t : Bytes) (tag : Tag) (sel : List SelNode) : List Bytes :=
  sel.map (·.tag.first t) ++ [tag.first t]

/-! ### What a key is -/

theorem joinFieldName_eq (name : Bytes) (sel : List SelNode) (sep : Bytes) :
    joinFieldName name sel sep = sepJoin sep (namePath name sel) := by
  have h : ∀ acc : Bytes, sel.foldl (fun key n => key ++ (n.name ++ sep)) acc ++ name =
      acc ++ sepJoin sep (namePath name sel) := by
    induction sel with
    | nil => intro acc; simp [namePath, sepJoin]
    | cons n ns ih =>
      intro acc
      have e : namePath name (n :: ns) = n.name :: namePath name ns := rfl
      rw [List.foldl_cons, ih, e, sepJoin_cons _ _ _ (by simp [namePath])]
      simp
  simpa [joinFieldName] using h []

theorem tagItems_eq (t : Bytes) (sel : List SelNode) :
    tagItems t sel = if b!"-" ∈ sel.map (·.tag.first t) then none
      else some ((sel.map (·.tag.first t)).filter (· ≠ [])) := by
  induction sel with
  | nil => rfl
  | cons n ns ih =>
    rw [tagItems, ih]
    by_cases h1 : n.tag.first t = b!"-"
    · simp [h1]
    · by_cases h2 : n.tag.first t = []
      · simp [h2]
      · have h1' : b!"-" ≠ n.tag.first t := fun h => h1 h.symm
        by_cases h3 : b!"-" ∈ ns.map (·.tag.first t)
        · rw [if_neg h1, if_neg (by simpa using h2), if_pos h3, if_pos (by
            rw [List.map_cons]; exact List.mem_cons_of_mem _ h3)]
          rfl
        · rw [if_neg h1, if_neg (by simpa using h2), if_neg h3, if_neg (by
            rw [List.map_cons, List.mem_cons]; exact fun h => h.elim h1' h3)]
          simp [h2]

theorem joinFieldTag_eq (tag : Tag) (sel : List SelNode) (t sep : Bytes) :
    joinFieldTag tag sel t sep =
      if b!"-" ∈ tagPath t tag sel then []
      else sepJoin sep ((tagPath t tag sel).filter (· ≠ [])) := by
  rw [joinFieldTag, tagItems_eq]
  by_cases h : b!"-" ∈ sel.map (·.tag.first t)
  · rw [if_pos h, if_pos (by rw [tagPath, List.mem_append]; exact .inl h)]
  · rw [if_neg h]
    by_cases h1 : tag.first t = b!"-"
    · simp [h1, tagPath]
    · have h1' : b!"-" ≠ tag.first t := fun h => h1 h.symm
      have hn : b!"-" ∉ tagPath t tag sel := by
        rw [tagPath, List.mem_append, List.mem_singleton]
        exact fun h' => h'.elim h h1'
      rw [if_neg hn]
      by_cases h2 : tag.first t = []
      · simp [h2, tagPath, joinStrs_eq]
      · simp [h1, h2, tagPath, joinStrs_eq]

/-- No `fck` tag on the field or above it: the configuration decides. -/
def NoKeyTag (tag : Tag) (sel : List SelNode) : Prop :=
  tag.get b!"fck" = [] ∧ ∀ n ∈ sel, n.tag.get b!"fck" = []

theorem findKeyTag_none (all sel : List SelNode) (h : ∀ n ∈ sel, n.tag.get b!"fck" = []) :
    findKeyTag all sel = ([], all) := by
  induction sel with
  | nil => rfl
  | cons n ns ih =>
    rw [findKeyTag, if_neg (by rw [h n (by simp)]; simp), ih fun m hm => h m (by simp [hm])]

theorem keySource_none (tag : Tag) (sel : List SelNode) (h : NoKeyTag tag sel) :
    keySource tag sel = ([], sel) := by
  rw [keySource, if_pos (by rw [h.1]; rfl), findKeyTag_none _ _ h.2]

/-- The key for given settings: the base name or tag, the joined names, or the joined non-empty tags
unless one of them is `-`. -/
def keyFor (c : KeyConf) (name : Bytes) (tag : Tag) (sel : List SelNode) : Bytes :=
  match decide (c.tag = []), c.base with
  | true, true => name
  | true, false => sepJoin c.sep (namePath name sel)
  | false, true => if tag.first c.tag = b!"-" then [] else tag.first c.tag
  | false, false =>
    if b!"-" ∈ tagPath c.tag tag sel then []
    else sepJoin c.sep ((tagPath c.tag tag sel).filter (· ≠ []))

theorem key_eq (env : Env) (name : Bytes) (tag : Tag) (sel : List SelNode) :
    filterColumnKey env name tag sel =
      keyFor ((keySource tag sel).1.foldl keyOption ⟨env.keyTag, env.keySep, env.keyBase⟩) name tag
        (keySource tag sel).2 := by
  rw [filterColumnKey, keyFor]
  generalize (keySource tag sel).1.foldl keyOption ⟨env.keyTag, env.keySep, env.keyBase⟩ = c
  rcases c with ⟨_ | ⟨x, xs⟩, s, _ | _⟩ <;>
    simp [joinFieldName_eq, joinFieldTag_eq]

/-- C38: without `fck` tags the key is the one for the configured settings. -/
theorem C38_key (env : Env) (name : Bytes) (tag : Tag) (sel : List SelNode) (h : NoKeyTag tag sel) :
    filterColumnKey env name tag sel = keyFor ⟨env.keyTag, env.keySep, env.keyBase⟩ name tag sel := by
  rw [key_eq, keySource_none tag sel h]
  rfl

/-- C38: an `fck` tag of the field itself overrides the settings, the last option of a kind counting;
the path remains whole. -/
theorem C38_own_tag (env : Env) (name : Bytes) (tag : Tag) (sel : List SelNode)
    (h : tag.get b!"fck" ≠ []) :
    filterColumnKey env name tag sel =
      keyFor ((tag.get b!"fck").foldl keyOption ⟨env.keyTag, env.keySep, env.keyBase⟩) name tag sel := by
  rw [key_eq, keySource, if_neg (by simpa using h)]

/-- C38: otherwise the first `fck` tag on the way down overrides the settings, and the path begins
there. -/
theorem C38_node_tag (env : Env) (name : Bytes) (tag : Tag) (as : List SelNode) (n : SelNode)
    (bs : List SelNode) (h0 : tag.get b!"fck" = []) (ha : ∀ m ∈ as, m.tag.get b!"fck" = [])
    (hn : n.tag.get b!"fck" ≠ []) :
    filterColumnKey env name tag (as ++ n :: bs) =
      keyFor ((n.tag.get b!"fck").foldl keyOption ⟨env.keyTag, env.keySep, env.keyBase⟩) name tag
        (n :: bs) := by
  have hf : ∀ all, findKeyTag all (as ++ n :: bs) = (n.tag.get b!"fck", n :: bs) := by
    intro all
    induction as with
    | nil => rw [List.nil_append, findKeyTag, if_pos (List.length_pos_iff.2 hn)]
    | cons m ms ih =>
      rw [List.cons_append, findKeyTag, if_neg (by rw [ha m (by simp)]; simp),
        ih fun k hk => ha k (by simp [hk])]
  rw [key_eq, keySource, if_pos (by rw [h0]; rfl), hf]

theorem firstSplit_key (k v : Bytes) (h : ':' ∉ k) : firstSplit ':' (k ++ ':' :: v) = some (k, v) := by
  induction k with
  | nil => rfl
  | cons c k ih =>
    have hc : c ≠ ':' := fun e => h (by simp [e])
    rw [List.cons_append, firstSplit, if_neg hc, ih (fun hm => h (by simp [hm]))]
    rfl

/-- C38: the options of an `fck` tag; anything else is ignored. -/
theorem C38_options (c : KeyConf) (v : Bytes) :
    keyOption c (b!"tag:" ++ v) = { c with tag := v } ∧
    keyOption c (b!"sep:" ++ v) = { c with sep := v } ∧
    keyOption c (b!"base:" ++ v) = { c with base := parseBool v } ∧
    (':' ∉ v → keyOption c v = c) := by
  refine ⟨rfl, rfl, rfl, fun h => ?_⟩
  have : ∀ w : Bytes, ':' ∉ w → firstSplit ':' w = none := by
    intro w hw
    induction w with
    | nil => rfl
    | cons d w ih =>
      have hd : d ≠ ':' := fun e => hw (by simp [e])
      rw [firstSplit, if_neg hd, ih (fun hm => hw (by simp [hm]))]
      rfl
  rw [keyOption, this v h]

/-- C38: when keys are tags, `-` on the field or on any field on the path hides the field. -/
theorem C38_hidden (env : Env) (name : Bytes) (tag : Tag) (sel : List SelNode) (h : NoKeyTag tag sel)
    (ht : env.keyTag ≠ []) (hb : env.keyBase = false) (hm : b!"-" ∈ tagPath env.keyTag tag sel) :
    filterColumnKey env name tag sel = [] := by
  rw [C38_key env name tag sel h, keyFor]
  simp [ht, hb, hm]

/-! ### Distinct keys -/

/-- The first character of the separator occurs in no part. -/
def SepFree (sep : Bytes) (ps : List Bytes) : Prop := ∃ c s, sep = c :: s ∧ ∀ p ∈ ps, c ∉ p

theorem cut_unique {c : Char} {a b s t : Bytes} (ha : c ∉ a) (hb : c ∉ b)
    (h : a ++ c :: s = b ++ c :: t) : a = b ∧ s = t := by
  induction a generalizing b with
  | nil =>
    cases b with
    | nil => simpa using h
    | cons d b => simp at h; exact absurd (by simp [h.1]) hb
  | cons d a ih =>
    cases b with
    | nil => simp at h; exact absurd (by simp [h.1]) ha
    | cons e b =>
      simp only [List.cons_append, List.cons.injEq] at h
      have := ih (fun hm => ha (by simp [hm])) (fun hm => hb (by simp [hm])) h.2
      exact ⟨by rw [h.1, this.1], this.2⟩

theorem cut_none {c : Char} {a b t : Bytes} (ha : c ∉ a) : a ≠ b ++ c :: t := by
  rintro rfl; simp at ha

theorem sepJoin_inj (sep : Bytes) (c : Char) (s : Bytes) (hs : sep = c :: s) (ps qs : List Bytes)
    (hp : ∀ p ∈ ps, c ∉ p) (hq : ∀ q ∈ qs, c ∉ q) (np : ps ≠ []) (nq : qs ≠ [])
    (h : sepJoin sep ps = sepJoin sep qs) : ps = qs := by
  subst hs
  induction ps generalizing qs with
  | nil => exact absurd rfl np
  | cons p ps ih =>
    match qs with
    | [] => exact absurd rfl nq
    | q :: qs =>
      have hp0 := hp p (by simp)
      have hq0 := hq q (by simp)
      match ps, qs with
      | [], [] => simpa [sepJoin] using h
      | [], q' :: qs =>
        rw [sepJoin_cons _ q _ (by simp)] at h
        simp only [sepJoin, List.intersperse, List.flatten_cons, List.flatten_nil, List.append_nil,
          List.append_assoc, List.cons_append] at h
        exact absurd h (cut_none hp0)
      | p' :: ps, [] =>
        rw [sepJoin_cons _ p _ (by simp)] at h
        simp only [sepJoin, List.intersperse, List.flatten_cons, List.flatten_nil, List.append_nil,
          List.append_assoc, List.cons_append] at h
        exact absurd h.symm (cut_none hq0)
      | p' :: ps, q' :: qs =>
        rw [sepJoin_cons _ p _ (by simp), sepJoin_cons _ q _ (by simp), List.append_assoc,
          List.append_assoc, List.cons_append, List.cons_append] at h
        have := cut_unique hp0 hq0 h
        rw [this.1, ih (q' :: qs) (fun x hx => hp x (by simp [hx])) (fun x hx => hq x (by simp [hx]))
          (by simp) (by simp) (List.append_cancel_left this.2)]

/-- C38: keys made of names determine the path of names, if the separator is not empty and its first
character occurs in none of the names. -/
theorem C38_distinct_names (env : Env) (n n' : Bytes) (t t' : Tag) (sel sel' : List SelNode)
    (hk : NoKeyTag t sel) (hk' : NoKeyTag t' sel') (ht : env.keyTag = []) (hb : env.keyBase = false)
    (hs : SepFree env.keySep (namePath n sel ++ namePath n' sel'))
    (h : filterColumnKey env n t sel = filterColumnKey env n' t' sel') :
    namePath n sel = namePath n' sel' := by
  rw [C38_key env n t sel hk, C38_key env n' t' sel' hk', keyFor, keyFor] at h
  simp only [ht, decide_true, hb] at h
  obtain ⟨c, s, e, hc⟩ := hs
  exact sepJoin_inj _ c s e _ _ (fun p hp => hc p (by simp [hp])) (fun p hp => hc p (by simp [hp]))
    (by simp [namePath]) (by simp [namePath]) h

/-- C38: keys made of tags determine the path of tags, if moreover no tag on the paths is missing or
`-`. -/
theorem C38_distinct_tags (env : Env) (n n' : Bytes) (t t' : Tag) (sel sel' : List SelNode)
    (hk : NoKeyTag t sel) (hk' : NoKeyTag t' sel') (ht : env.keyTag ≠ []) (hb : env.keyBase = false)
    (hs : SepFree env.keySep (tagPath env.keyTag t sel ++ tagPath env.keyTag t' sel'))
    (hv : ∀ p ∈ tagPath env.keyTag t sel ++ tagPath env.keyTag t' sel', p ≠ [] ∧ p ≠ b!"-")
    (h : filterColumnKey env n t sel = filterColumnKey env n' t' sel') :
    tagPath env.keyTag t sel = tagPath env.keyTag t' sel' := by
  rw [C38_key env n t sel hk, C38_key env n' t' sel' hk', keyFor, keyFor] at h
  have h1 : b!"-" ∉ tagPath env.keyTag t sel := fun hm => (hv _ (by simp [hm])).2 rfl
  have h2 : b!"-" ∉ tagPath env.keyTag t' sel' := fun hm => (hv _ (by simp [hm])).2 rfl
  have e1 : (tagPath env.keyTag t sel).filter (· ≠ []) = tagPath env.keyTag t sel :=
    List.filter_eq_self.2 fun p hp => by simpa using (hv p (by simp [hp])).1
  have e2 : (tagPath env.keyTag t' sel').filter (· ≠ []) = tagPath env.keyTag t' sel' :=
    List.filter_eq_self.2 fun p hp => by simpa using (hv p (by simp [hp])).1
  simp only [ht, decide_false, hb, h1, h2, if_false, e1, e2] at h
  obtain ⟨c, s, e, hc⟩ := hs
  exact sepJoin_inj _ c s e _ _ (fun p hp => hc p (by simp [hp])) (fun p hp => hc p (by simp [hp]))
    (by simp [tagPath]) (by simp [tagPath]) h

/-- C38 needs the first character: with the separator `__`, which occurs in none of the names, the
fields `x_ . b` and `x . _b` get the same key. -/
theorem C38_not_overlap :
    let env : Env := { pkgPath := [], keySep := b!"__" }
    filterColumnKey env b!"b" [] [{ name := b!"x_" }] = b!"x___b" ∧
    filterColumnKey env b!"_b" [] [{ name := b!"x" }] = b!"x___b" := by decide

/-- C38 fails with an empty separator, with base keys, when a tag is missing on the path, and for equal
tails below two fields with an `fck` tag of their own. -/
theorem C38_not_distinct :
    (filterColumnKey { pkgPath := [], keySep := [] } b!"c" [] [{ name := b!"ab" }] =
      filterColumnKey { pkgPath := [], keySep := [] } b!"bc" [] [{ name := b!"a" }]) ∧
    (filterColumnKey { pkgPath := [], keyBase := true } b!"x" [] [{ name := b!"a" }] =
      filterColumnKey { pkgPath := [], keyBase := true } b!"x" [] [{ name := b!"b" }]) ∧
    (filterColumnKey { pkgPath := [], keyTag := b!"json" } b!"X" [(b!"json", [b!"x"])] [{ name := b!"A" }] =
      filterColumnKey { pkgPath := [], keyTag := b!"json" } b!"X" [(b!"json", [b!"x"])] [{ name := b!"B" }]) ∧
    (filterColumnKey { pkgPath := [] } b!"X" []
        [{ name := b!"A" }, { name := b!"K", tag := [(b!"fck", [b!"sep:_"])] }] =
      filterColumnKey { pkgPath := [] } b!"X" []
        [{ name := b!"B" }, { name := b!"K", tag := [(b!"fck", [b!"sep:_"])] }]) := by decide

example : filterColumnKey { pkgPath := [] } b!"Name" [] [{ name := b!"Org" }, { name := b!"Owner" }] =
    b!"Org.Owner.Name" := by decide
example : filterColumnKey { pkgPath := [], keyTag := b!"json" } b!"Name" [(b!"json", [b!"name"])]
    [{ name := b!"Org", tag := [(b!"json", [b!"org", b!"omitempty"])] }, { name := b!"Owner" }] =
    b!"org.name" := by decide
example : filterColumnKey { pkgPath := [], keyTag := b!"json" } b!"Name" [(b!"json", [b!"name"])]
    [{ name := b!"Org", tag := [(b!"json", [b!"-"])] }] = [] := by decide
example : SepFree b!"." (namePath b!"Name" [{ name := b!"Org" }]) :=
  ⟨'.', [], rfl, by simp [namePath]⟩

end Verif.Analysis
