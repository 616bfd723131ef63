import Verif.Typesutil.Props

/- C70: the predicates. -/
namespace Verif.Typesutil
open Verif.Analysis (Res.bind_eq_ok Res.map_eq_ok)

/-! ### One method -/

/-- A single method with the signature. -/
theorem implements_one {ms : List Method} {n : Bytes} {s : Sig} :
    Implements ms [(n, s)] ↔ ∃ m ∈ ms, m.name = n ∧ m.sig.norm = s := by
  simp [Implements]

/-- **C70** A type that is taken for a scanner is one. -/
theorem C70_scanner_sound {t : Named} (hw : t.Proper) (h : implementsScanner t = true) :
    Implements t.methodSet scanner := by
  unfold implementsScanner at h
  split at h
  · rename_i a r v hf
    obtain ⟨m, hm, hn, hs⟩ := first_mem hf
    simp only [Bool.and_eq_true] at h
    have hv : m.sig.variadic = false := by
      refine not_variadic hw (List.mem_append.2 (.inl hm)) ?_
      intro e he
      simp only [hs, List.getLast?_singleton, Option.some.injEq] at he
      subst he; simp [isEmptyInterface] at h
    refine implements_one.2 ⟨m, listed_subset hm, hn, ?_⟩
    rw [hs] at hv ⊢
    simp only at hv
    simp [Sig.norm, isEmptyInterface_norm h.1, isError_norm h.2, hv]
  · cases h

/-- **C70** A scanner is taken for one, if its method is not promoted and names no type by an alias. -/
theorem C70_scanner_complete_partial {t : Named} (hw : t.Proper) (hp : Plain t.listed)
    (h : Implements t.listed scanner) : implementsScanner t = true := by
  obtain ⟨m, hm, hn, hs⟩ := implements_one.1 h
  have hpl := hp m hm
  unfold implementsScanner
  rw [first_of hw.names hm hn]
  obtain ⟨_, ⟨ps, rs, v⟩, _⟩ := m
  simp only [Sig.norm, Sig.mk.injEq, List.map_eq_cons_iff, List.map_eq_nil_iff] at hs
  obtain ⟨⟨a, _, rfl, ha, rfl⟩, ⟨r, _, rfl, hr, rfl⟩, rfl⟩ := hs
  simp only [Bool.and_eq_true]
  exact ⟨isEmptyInterface_of (hpl a (by simp)) ha, isError_of (hpl r (by simp)) hr⟩

theorem C70_valuer_sound {t : Named} (hw : t.Proper) (h : implementsValuer t = true) :
    Implements t.methodSet valuer := by
  unfold implementsValuer at h
  split at h
  · rename_i r e v hf
    obtain ⟨m, hm, hn, hs⟩ := first_mem hf
    simp only [Bool.and_eq_true] at h
    have hv : m.sig.variadic = false := by
      refine not_variadic hw (List.mem_append.2 (.inl hm)) ?_
      simp [hs]
    refine implements_one.2 ⟨m, listed_subset hm, hn, ?_⟩
    rw [hs] at hv ⊢
    simp only at hv
    simp [Sig.norm, isNamed_norm h.1, isError_norm h.2, hv]
  · cases h

theorem C70_valuer_complete_partial {t : Named} (hw : t.Proper) (hp : Plain t.listed)
    (h : Implements t.listed valuer) : implementsValuer t = true := by
  obtain ⟨m, hm, hn, hs⟩ := implements_one.1 h
  have hpl := hp m hm
  unfold implementsValuer
  rw [first_of hw.names hm hn]
  obtain ⟨_, ⟨ps, rs, v⟩, _⟩ := m
  simp only [Sig.norm, Sig.mk.injEq, List.map_eq_cons_iff, List.map_eq_nil_iff] at hs
  obtain ⟨rfl, ⟨a, _, rfl, ha, r, _, rfl, hr, rfl⟩, rfl⟩ := hs
  simp only [Bool.and_eq_true]
  exact ⟨isNamed_of (hpl a (by simp)) ha, isError_of (hpl r (by simp)) hr⟩

theorem C70_jsonMarshaler_sound {t : Named} (hw : t.Proper) (h : implementsJSONMarshaler t = true) :
    Implements t.methodSet jsonMarshaler := by
  unfold implementsJSONMarshaler at h
  split at h
  · rename_i r e v hf
    obtain ⟨m, hm, hn, hs⟩ := first_mem hf
    simp only [Bool.and_eq_true] at h
    have hv : m.sig.variadic = false := by
      refine not_variadic hw (List.mem_append.2 (.inl hm)) ?_
      simp [hs]
    refine implements_one.2 ⟨m, listed_subset hm, hn, ?_⟩
    rw [hs] at hv ⊢
    simp only at hv
    simp [Sig.norm, isByteSlice_norm h.1, isError_norm h.2, hv]
  · cases h

theorem C70_jsonMarshaler_complete_partial {t : Named} (hw : t.Proper) (hp : Plain t.listed)
    (h : Implements t.listed jsonMarshaler) : implementsJSONMarshaler t = true := by
  obtain ⟨m, hm, hn, hs⟩ := implements_one.1 h
  have hpl := hp m hm
  unfold implementsJSONMarshaler
  rw [first_of hw.names hm hn]
  obtain ⟨_, ⟨ps, rs, v⟩, _⟩ := m
  simp only [Sig.norm, Sig.mk.injEq, List.map_eq_cons_iff, List.map_eq_nil_iff] at hs
  obtain ⟨rfl, ⟨a, _, rfl, ha, r, _, rfl, hr, rfl⟩, rfl⟩ := hs
  simp only [Bool.and_eq_true]
  exact ⟨isByteSlice_of (hpl a (by simp)) ha, isError_of (hpl r (by simp)) hr⟩

/-- **C70** A method with the parameter `...byte` counts; apart from it a type taken for a json.Unmarshaler is
one. -/
theorem C70_jsonUnmarshaler_sound_partial {t : Named}
    (hv : ∀ m ∈ t.listed, m.name = b!"UnmarshalJSON" → m.sig.variadic = false)
    (h : implementsJSONUnmarshaler t = true) : Implements t.methodSet jsonUnmarshaler := by
  unfold implementsJSONUnmarshaler at h
  split at h
  · rename_i a r v hf
    obtain ⟨m, hm, hn, hs⟩ := first_mem hf
    simp only [Bool.and_eq_true] at h
    refine implements_one.2 ⟨m, listed_subset hm, hn, ?_⟩
    have hv := hv m hm hn
    rw [hs] at hv ⊢
    simp only at hv
    simp [Sig.norm, isByteSlice_norm h.1, isError_norm h.2, hv]
  · cases h

theorem C70_jsonUnmarshaler_complete_partial {t : Named} (hw : t.Proper) (hp : Plain t.listed)
    (h : Implements t.listed jsonUnmarshaler) : implementsJSONUnmarshaler t = true := by
  obtain ⟨m, hm, hn, hs⟩ := implements_one.1 h
  have hpl := hp m hm
  unfold implementsJSONUnmarshaler
  rw [first_of hw.names hm hn]
  obtain ⟨_, ⟨ps, rs, v⟩, _⟩ := m
  simp only [Sig.norm, Sig.mk.injEq, List.map_eq_cons_iff, List.map_eq_nil_iff] at hs
  obtain ⟨⟨a, _, rfl, ha, rfl⟩, ⟨r, _, rfl, hr, rfl⟩, rfl⟩ := hs
  simp only [Bool.and_eq_true]
  exact ⟨isByteSlice_of (hpl a (by simp)) ha, isError_of (hpl r (by simp)) hr⟩

theorem xml_sound {n arg : Bytes} {t : Named} (hw : t.Proper) (h : implementsXML n arg t = .ok true) :
    Implements t.methodSet [(n, ⟨[.ptr (tXml arg), tXml b!"StartElement"], [tError], false⟩)] := by
  unfold implementsXML at h
  split at h
  · rename_i a b r v hf
    obtain ⟨m, hm, hn, hs⟩ := first_mem hf
    rw [Res.bind_eq_ok] at h
    obtain ⟨x, hx, h⟩ := h
    cases x with
    | false => simp at h
    | true =>
      simp only [Bool.not_true, Bool.false_eq_true, if_false, Res.map_eq_ok] at h
      obtain ⟨y, hy, h⟩ := h
      rw [Bool.and_eq_true] at h
      obtain ⟨rfl, he⟩ := h
      have hv : m.sig.variadic = false := by
        refine not_variadic hw (List.mem_append.2 (.inl hm)) ?_
        intro e he'
        simp only [hs, List.getLast?_cons_cons, List.getLast?_singleton, Option.some.injEq] at he'
        subst he'; simp [isXml] at hy
      refine implements_one.2 ⟨m, listed_subset hm, hn, ?_⟩
      rw [hs] at hv ⊢
      simp only at hv
      simp [Sig.norm, isXmlPtr_norm hx, isXml_norm hy, isError_norm he, hv]
  · cases h

theorem xml_complete {n arg : Bytes} {t : Named} (hw : t.Proper) (hp : Plain t.listed)
    (h : Implements t.listed [(n, ⟨[.ptr (tXml arg), tXml b!"StartElement"], [tError], false⟩)]) :
    implementsXML n arg t = .ok true := by
  obtain ⟨m, hm, hn, hs⟩ := implements_one.1 h
  have hpl := hp m hm
  unfold implementsXML
  rw [first_of hw.names hm hn]
  obtain ⟨_, ⟨ps, rs, v⟩, _⟩ := m
  simp only [Sig.norm, Sig.mk.injEq, List.map_eq_cons_iff, List.map_eq_nil_iff] at hs
  obtain ⟨⟨a, _, rfl, ha, b, _, rfl, hb, rfl⟩, ⟨r, _, rfl, hr, rfl⟩, rfl⟩ := hs
  simp [isXmlPtr_of (hpl a (by simp)) ha, isXml_of (hpl b (by simp)) hb, isError_of (hpl r (by simp)) hr,
    Res.bind, Res.map]

theorem C70_xml_sound {t : Named} (hw : t.Proper) :
    (implementsXMLMarshaler t = .ok true → Implements t.methodSet xmlMarshaler) ∧
    (implementsXMLUnmarshaler t = .ok true → Implements t.methodSet xmlUnmarshaler) :=
  ⟨xml_sound hw, xml_sound hw⟩

theorem C70_xml_complete_partial {t : Named} (hw : t.Proper) (hp : Plain t.listed) :
    (Implements t.listed xmlMarshaler → implementsXMLMarshaler t = .ok true) ∧
    (Implements t.listed xmlUnmarshaler → implementsXMLUnmarshaler t = .ok true) :=
  ⟨xml_complete hw hp, xml_complete hw hp⟩

/-! ### Hooks: interfaces are not looked into -/

theorem C70_afterScanner_sound {t : Named} (hw : t.Proper) (h : implementsAfterScanner t = true) :
    Implements t.methodSet afterScanner := by
  unfold implementsAfterScanner at h
  split at h
  · rename_i s hf
    obtain ⟨m, hm, hn, hs⟩ := first_mem hf
    simp only [Bool.and_eq_true, decide_eq_true_eq, List.length_eq_zero_iff] at h
    have hv : m.sig.variadic = false := by
      refine not_variadic hw (List.mem_append.2 (.inr hm)) ?_
      simp [hs, h.1]
    refine implements_one.2 ⟨m, declared_subset hw hm, hn, ?_⟩
    rw [hs] at hv ⊢
    simp [Sig.norm, h.1, h.2, hv]
  · cases h

theorem C70_errorHandler_sound {t : Named} (hw : t.Proper) (h : implementsErrorHandler t = true) :
    Implements t.methodSet errorHandler := by
  unfold implementsErrorHandler at h
  split at h
  · rename_i a r v hf
    obtain ⟨m, hm, hn, hs⟩ := first_mem hf
    simp only [Bool.and_eq_true] at h
    have hv : m.sig.variadic = false := by
      refine not_variadic hw (List.mem_append.2 (.inr hm)) ?_
      intro e he
      simp only [hs, List.getLast?_singleton, Option.some.injEq] at he
      subst he; simp [isError] at h
    refine implements_one.2 ⟨m, declared_subset hw hm, hn, ?_⟩
    rw [hs] at hv ⊢
    simp only at hv
    simp [Sig.norm, isError_norm h.1, isError_norm h.2, hv]
  · cases h

/-- **C70** The package of ErrorInfo may have any path that ends in that of gosql. -/
theorem C70_errorInfoHandler_sound {t : Named} (hw : t.Proper) (h : implementsErrorInfoHandler t = .ok true) :
    ∃ p, gosqlPath <:+ p ∧ Implements t.methodSet (errorInfoHandler p) := by
  unfold implementsErrorInfoHandler at h
  split at h
  · rename_i a r v hf
    obtain ⟨m, hm, hn, hs⟩ := first_mem hf
    split at h
    · cases h
    · rename_i he
      obtain ⟨p, hp, ha⟩ := isErrorInfoPtr_norm h
      have hv : m.sig.variadic = false := by
        refine not_variadic hw (List.mem_append.2 (.inr hm)) ?_
        intro e he'
        simp only [hs, List.getLast?_singleton, Option.some.injEq] at he'
        subst he'; simp [isErrorInfoPtr] at h
      refine ⟨p, hp, implements_one.2 ⟨m, declared_subset hw hm, hn, ?_⟩⟩
      rw [hs] at hv ⊢
      simp only at hv
      simp [Sig.norm, ha, isError_norm (t := r) (by simpa using he), hv]
  · cases h

/-- **C70** The hooks of a type that is no interface are found. -/
theorem C70_hooks_complete_partial {t : Named} (hw : t.Proper) (hi : t.iface = none) (hp : Plain t.declared) :
    (Implements t.declared afterScanner → implementsAfterScanner t = true) ∧
    (Implements t.declared errorHandler → implementsErrorHandler t = true) ∧
    (Implements t.declared (errorInfoHandler gosqlPath) → implementsErrorInfoHandler t = .ok true) := by
  have hd : (t.declared.map (·.name)).Nodup := by simpa [Named.listed, hi] using hw.names
  refine ⟨fun h => ?_, fun h => ?_, fun h => ?_⟩
  · obtain ⟨m, hm, hn, hs⟩ := implements_one.1 h
    unfold implementsAfterScanner
    rw [first_of hd hm hn]
    obtain ⟨_, ⟨ps, rs, v⟩, _⟩ := m
    simp only [Sig.norm, Sig.mk.injEq, List.map_eq_nil_iff] at hs
    simp [hs]
  · obtain ⟨m, hm, hn, hs⟩ := implements_one.1 h
    have hpl := hp m hm
    unfold implementsErrorHandler
    rw [first_of hd hm hn]
    obtain ⟨_, ⟨ps, rs, v⟩, _⟩ := m
    simp only [Sig.norm, Sig.mk.injEq, List.map_eq_cons_iff, List.map_eq_nil_iff] at hs
    obtain ⟨⟨a, _, rfl, ha, rfl⟩, ⟨r, _, rfl, hr, rfl⟩, rfl⟩ := hs
    simp only [Bool.and_eq_true]
    exact ⟨isError_of (hpl a (by simp)) ha, isError_of (hpl r (by simp)) hr⟩
  · obtain ⟨m, hm, hn, hs⟩ := implements_one.1 h
    have hpl := hp m hm
    unfold implementsErrorInfoHandler
    rw [first_of hd hm hn]
    obtain ⟨_, ⟨ps, rs, v⟩, _⟩ := m
    simp only [Sig.norm, Sig.mk.injEq, List.map_eq_cons_iff, List.map_eq_nil_iff] at hs
    obtain ⟨⟨a, _, rfl, ha, rfl⟩, ⟨r, _, rfl, hr, rfl⟩, rfl⟩ := hs
    simp only [isError_of (hpl r (by simp)) hr, Bool.not_true, Bool.false_eq_true, if_false]
    exact isErrorInfoPtr_of (List.suffix_refl _) (hpl a (by simp)) ha

/-- **C70** An interface is never taken for a hook. -/
theorem C70_not_interface {t : Named} (hw : t.Proper) (hi : t.iface ≠ none) :
    implementsAfterScanner t = false ∧ implementsErrorHandler t = false ∧
    implementsErrorInfoHandler t = .ok false := by
  have hd := hw.iface hi
  simp [implementsAfterScanner, implementsErrorHandler, implementsErrorInfoHandler, hd, first]

/-! ### Several methods -/

/-- What the loop finds: every method that is looked for is right, and these are their names. -/
theorem loop_some {check : Method → R (Option Bool)} : ∀ {ms : List Method} {f l : List Bytes},
    loop check f ms = .ok (some l) → ∀ n ∈ l, n ∈ f ∨ ∃ m ∈ ms, m.name = n ∧ check m = .ok (some true)
  | [], f, l, h, n, hn => by
    simp only [loop, Res.ok.injEq, Option.some.injEq] at h
    subst h; exact .inl hn
  | m :: ms, f, l, h, n, hn => by
    simp only [loop, Res.bind_eq_ok] at h
    obtain ⟨b, hb, h⟩ := h
    match b, hb, h with
    | none, hb, h =>
      rcases loop_some h n hn with h' | ⟨m', hm, h'⟩
      · exact .inl h'
      · exact .inr ⟨m', List.mem_cons_of_mem _ hm, h'⟩
    | some false, hb, h => cases h
    | some true, hb, h =>
      rcases loop_some h n hn with h' | ⟨m', hm, h'⟩
      · rcases List.mem_cons.1 h' with rfl | h'
        · exact .inr ⟨m, List.mem_cons_self .., rfl, hb⟩
        · exact .inl h'
      · exact .inr ⟨m', List.mem_cons_of_mem _ hm, h'⟩

theorem loop_of {check : Method → R (Option Bool)} : ∀ {ms : List Method} {f : List Bytes},
    (∀ m ∈ ms, check m = .ok none ∨ check m = .ok (some true)) →
    ∃ l, loop check f ms = .ok (some l) ∧ (∀ n ∈ f, n ∈ l) ∧
      ∀ m ∈ ms, check m = .ok (some true) → m.name ∈ l
  | [], f, _ => ⟨f, rfl, fun _ h => h, by simp⟩
  | m :: ms, f, h => by
    have hms := fun x hx => h x (List.mem_cons_of_mem _ hx)
    rcases h m (List.mem_cons_self ..) with hc | hc
    · obtain ⟨l, h1, h2, h3⟩ := loop_of (f := f) hms
      refine ⟨l, by simp [loop, hc, Res.bind, h1], h2, ?_⟩
      intro x hx hxc
      rcases List.mem_cons.1 hx with rfl | hx
      · rw [hc] at hxc; cases hxc
      · exact h3 x hx hxc
    · obtain ⟨l, h1, h2, h3⟩ := loop_of (f := m.name :: f) hms
      refine ⟨l, by simp [loop, hc, Res.bind, h1], fun n hn => h2 n (List.mem_cons_of_mem _ hn), ?_⟩
      intro x hx hxc
      rcases List.mem_cons.1 hx with rfl | hx
      · exact h2 _ (List.mem_cons_self ..)
      · exact h3 x hx hxc

theorem hasAll_iff {names : List Bytes} {o : Option (List Bytes)} :
    hasAll names o = true ↔ ∃ l, o = some l ∧ ∀ n ∈ names, n ∈ l := by
  cases o <;> simp [hasAll]

theorem queryArgs_norm {s : Sig} (h : isQueryArgs s = true) :
    s.params.map TRef.norm = queryArgs ∧ s.variadic = true := by
  unfold isQueryArgs at h
  split at h
  · rename_i a b hs
    simp only [Bool.and_eq_true] at h
    simp [hs, queryArgs, isString_norm h.1.2, isEmptyInterfaceSlice_norm h.2, h.1.1]
  · cases h

theorem contextArgs_norm {s : Sig} (h : isContextArgs s = true) :
    s.params.map TRef.norm = contextArgs ∧ s.variadic = true := by
  unfold isContextArgs at h
  split at h
  · rename_i c a b hs
    simp only [Bool.and_eq_true] at h
    simp [hs, contextArgs, isString_norm h.1.2, isEmptyInterfaceSlice_norm h.2, h.1.1.1, isNamed_norm h.1.1.2]
  · cases h

theorem resultError_norm {s : Sig} (h : isResultError s = true) :
    s.results.map TRef.norm = [tSql b!"Result", tError] := by
  unfold isResultError at h
  split at h
  · rename_i r e hs
    simp only [Bool.and_eq_true] at h
    simp [hs, isNamed_norm h.1, isError_norm h.2, tSql]
  · cases h

theorem rowsError_norm {s : Sig} (h : isRowsError s = true) :
    s.results.map TRef.norm = [.ptr (tSql b!"Rows"), tError] := by
  unfold isRowsError at h
  split at h
  · rename_i r e hs
    simp only [Bool.and_eq_true] at h
    simp [hs, isNamedPtr_norm h.1, isError_norm h.2, tSql]
  · cases h

theorem row_norm {s : Sig} (h : isRow s = true) : s.results.map TRef.norm = [.ptr (tSql b!"Row")] := by
  unfold isRow at h
  split at h
  · rename_i r hs
    simp [hs, isNamedPtr_norm h, tSql]
  · cases h

/-- **C70** A type that is accepted as a connection has the methods of gosql.Conn. -/
theorem C70_conn_sound {t : Named} (h : implementsConn t = .ok true) : Implements t.methodSet conn := by
  unfold implementsConn at h
  rw [Res.map_eq_ok] at h
  obtain ⟨o, ho, h⟩ := h
  obtain ⟨l, rfl, hl⟩ := hasAll_iff.1 h
  have key : ∀ n ∈ connNames, ∃ m ∈ t.methodSet, m.name = n ∧ connMethod m = .ok (some true) := by
    intro n hn
    rcases loop_some ho n (hl n hn) with h' | ⟨m, hm, h'⟩
    · cases h'
    · exact ⟨m, listed_subset hm, h'⟩
  have hnames : ∀ x ∈ conn, x.1 ∈ connNames := by decide
  intro x hx
  obtain ⟨m, hm, hn, hc⟩ := key x.1 (hnames x hx)
  refine ⟨m, hm, hn, ?_⟩
  simp only [conn, List.mem_cons, List.not_mem_nil, or_false] at hx
  rcases hx with rfl | rfl | rfl | rfl | rfl | rfl
  all_goals
    simp [connMethod, hn] at hc
    first
      | simp [Sig.norm, queryArgs_norm hc.1, resultError_norm hc.2]; done
      | simp [Sig.norm, queryArgs_norm hc.1, rowsError_norm hc.2]; done
      | simp [Sig.norm, queryArgs_norm hc.1, row_norm hc.2]; done
      | simp [Sig.norm, contextArgs_norm hc.1, resultError_norm hc.2]; done
      | simp [Sig.norm, contextArgs_norm hc.1, rowsError_norm hc.2]; done
      | simp [Sig.norm, contextArgs_norm hc.1, row_norm hc.2]; done

/-! #### The other way round -/

theorem queryArgs_of {s : Sig} (hp : ∀ t ∈ s.params, t.plain = true) (h : s.params.map TRef.norm = queryArgs)
    (hv : s.variadic = true) : isQueryArgs s = true := by
  obtain ⟨ps, rs, v⟩ := s
  simp only [queryArgs, List.map_eq_cons_iff, List.map_eq_nil_iff] at h hp
  obtain ⟨a, _, rfl, ha, b, _, rfl, hb, rfl⟩ := h
  simp only at hv
  simp [isQueryArgs, hv, isString_of (hp a (by simp)) ha, isEmptyInterfaceSlice_of (hp b (by simp)) hb]

theorem contextArgs_of {s : Sig} (hp : ∀ t ∈ s.params, t.plain = true) (h : s.params.map TRef.norm = contextArgs)
    (hv : s.variadic = true) : isContextArgs s = true := by
  obtain ⟨ps, rs, v⟩ := s
  simp only [contextArgs, List.map_eq_cons_iff, List.map_eq_nil_iff] at h hp
  obtain ⟨c, _, rfl, hc, a, _, rfl, ha, b, _, rfl, hb, rfl⟩ := h
  simp only at hv
  simp [isContextArgs, hv, isContext, isNamed_of (hp c (by simp)) hc, isString_of (hp a (by simp)) ha,
    isEmptyInterfaceSlice_of (hp b (by simp)) hb]

theorem resultError_of {s : Sig} (hp : ∀ t ∈ s.results, t.plain = true)
    (h : s.results.map TRef.norm = [tSql b!"Result", tError]) : isResultError s = true := by
  obtain ⟨ps, rs, v⟩ := s
  simp only [List.map_eq_cons_iff, List.map_eq_nil_iff] at h hp
  obtain ⟨a, _, rfl, ha, b, _, rfl, hb, rfl⟩ := h
  simp [isResultError, isSqlResult, isNamed_of (hp a (by simp)) ha, isError_of (hp b (by simp)) hb]

theorem rowsError_of {s : Sig} (hp : ∀ t ∈ s.results, t.plain = true)
    (h : s.results.map TRef.norm = [.ptr (tSql b!"Rows"), tError]) : isRowsError s = true := by
  obtain ⟨ps, rs, v⟩ := s
  simp only [List.map_eq_cons_iff, List.map_eq_nil_iff] at h hp
  obtain ⟨a, _, rfl, ha, b, _, rfl, hb, rfl⟩ := h
  simp [isRowsError, isSqlRowsPtr, isNamedPtr_of (hp a (by simp)) ha, isError_of (hp b (by simp)) hb]

theorem row_of {s : Sig} (hp : ∀ t ∈ s.results, t.plain = true)
    (h : s.results.map TRef.norm = [.ptr (tSql b!"Row")]) : isRow s = true := by
  obtain ⟨ps, rs, v⟩ := s
  simp only [List.map_eq_cons_iff, List.map_eq_nil_iff] at h hp
  obtain ⟨a, _, rfl, ha, rfl⟩ := h
  simp [isRow, isSqlRowPtr, isNamedPtr_of (hp a (by simp)) ha]

theorem connMethod_of {m : Method} (hp : ∀ t ∈ m.sig.params ++ m.sig.results, t.plain = true) {x : Bytes × Sig}
    (hx : x ∈ conn) (hn : m.name = x.1) (hs : m.sig.norm = x.2) : connMethod m = .ok (some true) := by
  have h1 : ∀ t ∈ m.sig.params, t.plain = true := fun t ht => hp t (List.mem_append.2 (.inl ht))
  have h2 : ∀ t ∈ m.sig.results, t.plain = true := fun t ht => hp t (List.mem_append.2 (.inr ht))
  simp only [conn, List.mem_cons, List.not_mem_nil, or_false] at hx
  rcases hx with rfl | rfl | rfl | rfl | rfl | rfl
  all_goals
    simp only [Sig.norm, Sig.mk.injEq] at hs
    obtain ⟨e1, e2, e3⟩ := hs
    simp only at hn
    first
      | simp [connMethod, hn, queryArgs_of h1 e1 e3, resultError_of h2 e2]; done
      | simp [connMethod, hn, queryArgs_of h1 e1 e3, rowsError_of h2 e2]; done
      | simp [connMethod, hn, queryArgs_of h1 e1 e3, row_of h2 e2]; done
      | simp [connMethod, hn, contextArgs_of h1 e1 e3, resultError_of h2 e2]; done
      | simp [connMethod, hn, contextArgs_of h1 e1 e3, rowsError_of h2 e2]; done
      | simp [connMethod, hn, contextArgs_of h1 e1 e3, row_of h2 e2]; done

theorem connMethod_other {m : Method} (h : m.name ∉ connNames) : connMethod m = .ok none := by
  simp only [connNames, List.mem_cons, List.not_mem_nil, or_false, not_or] at h
  simp [connMethod, h]

theorem unique_name {ms : List Method} (hn : (ms.map (·.name)).Nodup) {a b : Method} (ha : a ∈ ms) (hb : b ∈ ms)
    (h : a.name = b.name) : a = b := by
  induction ms with
  | nil => cases ha
  | cons x ms ih =>
    simp only [List.map_cons, List.nodup_cons] at hn
    rcases List.mem_cons.1 ha with rfl | ha' <;> rcases List.mem_cons.1 hb with rfl | hb'
    · rfl
    · exact absurd (List.mem_map.2 ⟨b, hb', h.symm⟩) hn.1
    · exact absurd (List.mem_map.2 ⟨a, ha', h⟩) hn.1
    · exact ih hn.2 ha' hb'

/-- **C70** A type with the methods of gosql.Conn, none promoted, is accepted. -/
theorem C70_conn_complete_partial {t : Named} (hw : t.Proper) (hp : Plain t.listed)
    (h : Implements t.listed conn) : implementsConn t = .ok true := by
  have hall : ∀ n ∈ connNames, ∃ x ∈ conn, x.1 = n := by decide
  have hm : ∀ m ∈ t.listed, connMethod m = .ok none ∨ connMethod m = .ok (some true) := by
    intro m hm
    by_cases hn : m.name ∈ connNames
    · obtain ⟨x, hx, he⟩ := hall _ hn
      obtain ⟨m', hm', hn', hs⟩ := h x hx
      have := unique_name hw.names hm hm' (by rw [hn', he])
      subst this
      exact .inr (connMethod_of (hp m hm) hx hn' hs)
    · exact .inl (connMethod_other hn)
  obtain ⟨l, h1, _, h3⟩ := loop_of (f := []) hm
  unfold implementsConn
  rw [h1]
  show Res.ok (hasAll connNames (some l)) = _
  rw [hasAll_iff.2 ⟨l, rfl, ?_⟩]
  intro n hn
  obtain ⟨x, hx, rfl⟩ := hall n hn
  obtain ⟨m, hm, hn', hs⟩ := h x hx
  rw [← hn']
  exact h3 m hm (connMethod_of (hp m hm) hx hn' hs)

/-- **C70** The question about connections never panics. -/
theorem C70_conn_total (t : Named) : ∃ b, implementsConn t = .ok b := by
  have : ∀ (ms : List Method) (f : List Bytes), ∃ o, loop connMethod f ms = .ok o := by
    intro ms
    induction ms with
    | nil => exact fun f => ⟨_, rfl⟩
    | cons m ms ih =>
      intro f
      have hc : ∃ o, connMethod m = .ok o := by
        unfold connMethod
        repeat' split
        all_goals exact ⟨_, rfl⟩
      obtain ⟨o, hc⟩ := hc
      rw [loop, hc]
      match o with
      | none => exact ih f
      | some false => exact ⟨_, rfl⟩
      | some true => exact ih _
  obtain ⟨o, ho⟩ := this t.listed []
  exact ⟨_, by rw [implementsConn, ho]; rfl⟩

/-! ### Filter constructors -/

theorem init_norm {s : Sig} (h : isInit s = true) :
    s.params.map TRef.norm = [.map tString tString, tString] ∧ s.results = [] ∧
    ∀ e, s.params.getLast? ≠ some (.slice e) := by
  unfold isInit at h
  split at h
  · rename_i a b hs hr
    simp only [Bool.and_eq_true] at h
    refine ⟨by simp [hs, isStringMap_norm h.1, isString_norm h.2], hr, ?_⟩
    intro e he
    simp only [hs, List.getLast?_cons_cons, List.getLast?_singleton, Option.some.injEq] at he
    subst he; simp [isString] at h
  · cases h

theorem initV2_norm {s : Sig} (h : isInitV2 s = .ok true) :
    ∃ p, filterPath <:+ p ∧ s.params.map TRef.norm = [.map tString (.named (some p) b!"Column"), tString] ∧
    s.results = [] ∧ ∀ e, s.params.getLast? ≠ some (.slice e) := by
  unfold isInitV2 at h
  split at h
  · rename_i a b hs hr
    rw [Res.map_eq_ok] at h
    obtain ⟨x, hx, h⟩ := h
    simp only [Bool.and_eq_true] at h
    obtain ⟨rfl, hb⟩ := h
    obtain ⟨p, hp, ha⟩ := isStringColumnMap_norm hx
    refine ⟨p, hp, by simp [hs, ha, isString_norm hb], hr, ?_⟩
    intro e he
    simp only [hs, List.getLast?_cons_cons, List.getLast?_singleton, Option.some.injEq] at he
    subst he; simp [isString] at hb
  · cases h

theorem col_norm {s : Sig} (h : isCol s = true) :
    s.params.map TRef.norm = [tString, tString, tAny] ∧ s.results = [] ∧
    ∀ e, s.params.getLast? ≠ some (.slice e) := by
  unfold isCol at h
  split at h
  · rename_i a b c hs hr
    simp only [Bool.and_eq_true] at h
    refine ⟨by simp [hs, isString_norm h.1.1, isString_norm h.1.2, isEmptyInterface_norm h.2], hr, ?_⟩
    intro e he
    simp only [hs, List.getLast?_cons_cons, List.getLast?_singleton, Option.some.injEq] at he
    subst he; simp [isEmptyInterface] at h
  · cases h

theorem nest_norm {s : Sig} (h : isNest s = true) :
    s.params.map TRef.norm = [.func 0 0] ∧ s.results = [] ∧ ∀ e, s.params.getLast? ≠ some (.slice e) := by
  unfold isNest at h
  split at h
  · rename_i a hs hr
    refine ⟨by simp [hs, isNiladicFunc_norm h], hr, ?_⟩
    intro e he
    simp only [hs, List.getLast?_singleton, Option.some.injEq] at he
    subst he; simp [isNiladicFunc] at h
  · cases h

/-- **C70** A type that is taken for a filter constructor is one, and has InitV2 in addition. -/
theorem C70_filterConstructor_sound {t : Named} (hw : t.Proper) (h : implementsFilterConstructor t = .ok true) :
    Implements t.methodSet filterConstructor ∧
    ∃ p, filterPath <:+ p ∧ Implements t.methodSet (initV2 p) := by
  unfold implementsFilterConstructor at h
  rw [Res.map_eq_ok] at h
  obtain ⟨o, ho, h⟩ := h
  obtain ⟨l, rfl, hl⟩ := hasAll_iff.1 h
  have key : ∀ n ∈ ctorNames, ∃ m ∈ t.listed, m.name = n ∧ ctorMethod m = .ok (some true) := by
    intro n hn
    rcases loop_some ho n (hl n hn) with h' | ⟨m, hm, h'⟩
    · cases h'
    · exact ⟨m, hm, h'⟩
  have hv : ∀ m ∈ t.listed, (∀ e, m.sig.params.getLast? ≠ some (.slice e)) → m.sig.variadic = false :=
    fun m hm => not_variadic hw (List.mem_append.2 (.inl hm))
  refine ⟨?_, ?_⟩
  · have hnames : ∀ x ∈ filterConstructor, x.1 ∈ ctorNames := by decide
    intro x hx
    obtain ⟨m, hm, hn, hc⟩ := key x.1 (hnames x hx)
    refine ⟨m, listed_subset hm, hn, ?_⟩
    simp only [filterConstructor, List.mem_cons, List.not_mem_nil, or_false] at hx
    rcases hx with rfl | rfl | rfl | rfl
    · simp [ctorMethod, hn] at hc
      obtain ⟨h1, h2, h3⟩ := init_norm hc
      simp [Sig.norm, h1, h2, hv m hm h3]
    · simp [ctorMethod, hn] at hc
      obtain ⟨h1, h2, h3⟩ := col_norm hc
      simp [Sig.norm, h1, h2, hv m hm h3]
    · simp [ctorMethod, hn] at hc
      obtain ⟨h1, h2, h3⟩ := nest_norm hc
      simp [Sig.norm, h1, h2, hv m hm h3]
    · simp [ctorMethod, hn] at hc
      obtain ⟨h1, h2, h3⟩ := nest_norm hc
      simp [Sig.norm, h1, h2, hv m hm h3]
  · obtain ⟨m, hm, hn, hc⟩ := key b!"InitV2" (by decide)
    simp [ctorMethod, hn, Res.map_eq_ok] at hc
    obtain ⟨p, hp, h1, h2, h3⟩ := initV2_norm hc
    exact ⟨p, hp, implements_one.2 ⟨m, listed_subset hm, hn, by simp [Sig.norm, h1, h2, hv m hm h3]⟩⟩

theorem ctorMethod_of {m : Method} (hp : ∀ t ∈ m.sig.params ++ m.sig.results, t.plain = true) {x : Bytes × Sig}
    (hx : x ∈ filterConstructor ++ initV2 filterPath) (hn : m.name = x.1) (hs : m.sig.norm = x.2) :
    ctorMethod m = .ok (some true) := by
  obtain ⟨n, ⟨ps, rs, v⟩, r⟩ := m
  have h1 : ∀ t ∈ ps, t.plain = true := fun t ht => hp t (List.mem_append.2 (.inl ht))
  simp only [filterConstructor, initV2, List.mem_append, List.mem_cons, List.not_mem_nil, or_false] at hx
  rcases hx with (rfl | rfl | rfl | rfl) | rfl
  all_goals
    simp only [Sig.norm, Sig.mk.injEq, List.map_eq_cons_iff, List.map_eq_nil_iff] at hs
    simp only at hn
  · obtain ⟨⟨a, _, rfl, ha, b, _, rfl, hb, rfl⟩, rfl, _⟩ := hs
    simp [ctorMethod, hn, isInit, isStringMap_of (h1 a (by simp)) ha, isString_of (h1 b (by simp)) hb]
  · obtain ⟨⟨a, _, rfl, ha, b, _, rfl, hb, c, _, rfl, hc, rfl⟩, rfl, _⟩ := hs
    simp [ctorMethod, hn, isCol, isString_of (h1 a (by simp)) ha, isString_of (h1 b (by simp)) hb,
      isEmptyInterface_of (h1 c (by simp)) hc]
  · obtain ⟨⟨a, _, rfl, ha, rfl⟩, rfl, _⟩ := hs
    simp [ctorMethod, hn, isNest, isNiladicFunc_of (h1 a (by simp)) ha]
  · obtain ⟨⟨a, _, rfl, ha, rfl⟩, rfl, _⟩ := hs
    simp [ctorMethod, hn, isNest, isNiladicFunc_of (h1 a (by simp)) ha]
  · obtain ⟨⟨a, _, rfl, ha, b, _, rfl, hb, rfl⟩, rfl, _⟩ := hs
    simp [ctorMethod, hn, isInitV2, isStringColumnMap_of (List.suffix_refl _) (h1 a (by simp)) ha,
      isString_of (h1 b (by simp)) hb, Res.map]

theorem ctorMethod_other {m : Method} (h : m.name ∉ ctorNames) : ctorMethod m = .ok none := by
  simp only [ctorNames, List.mem_cons, List.not_mem_nil, or_false, not_or] at h
  simp [ctorMethod, h]

/-- **C70** A filter constructor that also has InitV2 is taken for one, if no method is promoted. -/
theorem C70_filterConstructor_complete_partial {t : Named} (hw : t.Proper) (hp : Plain t.listed)
    (h : Implements t.listed (filterConstructor ++ initV2 filterPath)) :
    implementsFilterConstructor t = .ok true := by
  have hall : ∀ n ∈ ctorNames, ∃ x ∈ filterConstructor ++ initV2 filterPath, x.1 = n := by decide
  have hm : ∀ m ∈ t.listed, ctorMethod m = .ok none ∨ ctorMethod m = .ok (some true) := by
    intro m hm
    by_cases hn : m.name ∈ ctorNames
    · obtain ⟨x, hx, he⟩ := hall _ hn
      obtain ⟨m', hm', hn', hs⟩ := h x hx
      have := unique_name hw.names hm hm' (by rw [hn', he])
      subst this
      exact .inr (ctorMethod_of (hp m hm) hx hn' hs)
    · exact .inl (ctorMethod_other hn)
  obtain ⟨l, h1, _, h3⟩ := loop_of (f := []) hm
  unfold implementsFilterConstructor
  rw [h1]
  show Res.ok (hasAll ctorNames (some l)) = _
  rw [hasAll_iff.2 ⟨l, rfl, ?_⟩]
  intro n hn
  obtain ⟨x, hx, rfl⟩ := hall n hn
  obtain ⟨m, hm, hn', hs⟩ := h x hx
  rw [← hn']
  exact h3 m hm (ctorMethod_of (hp m hm) hx hn' hs)

/-! ### Panics -/

/-- No parameter is a type of the universe scope, a pointer to one, or a map to one. -/
def NoUniverse (ms : List Method) : Prop :=
  ∀ m ∈ ms, ∀ t ∈ m.sig.params, ∀ n, t ≠ .named none n ∧ t ≠ .ptr (.named none n) ∧ ∀ k, t ≠ .map k (.named none n)

theorem isXml_total {n : Bytes} {t : TRef} (h : ∀ m, t ≠ .named none m) : ∃ b, isXml n t = .ok b := by
  cases t with
  | named q m => cases q with
    | none => exact absurd rfl (h m)
    | some p => exact ⟨_, rfl⟩
  | _ => exact ⟨_, rfl⟩

theorem isXmlPtr_total {n : Bytes} {t : TRef} (h : ∀ m, t ≠ .ptr (.named none m)) : ∃ b, isXmlPtr n t = .ok b := by
  cases t with
  | ptr e => exact isXml_total fun m he => h m (by rw [he])
  | _ => exact ⟨_, rfl⟩

theorem xml_total {n arg : Bytes} {t : Named} (h : NoUniverse t.listed) : ∃ b, implementsXML n arg t = .ok b := by
  unfold implementsXML
  split
  · rename_i a b r v hf
    obtain ⟨m, hm, _, hs⟩ := first_mem hf
    have ha := h m hm a (by simp [hs])
    have hb := h m hm b (by simp [hs])
    obtain ⟨x, hx⟩ := isXmlPtr_total (n := arg) (t := a) fun k => (ha k).2.1
    obtain ⟨y, hy⟩ := isXml_total (n := b!"StartElement") (t := b) fun k => (hb k).1
    rw [hx]
    cases x
    · exact ⟨_, rfl⟩
    · exact ⟨_, by simp [Res.bind, hy, Res.map]; rfl⟩
  · exact ⟨_, rfl⟩

/-- **C70** Without such parameters no question panics. -/
theorem C70_total_partial {t : Named} (h : NoUniverse t.listed) (h' : NoUniverse t.declared) :
    (∃ b, implementsXMLMarshaler t = .ok b) ∧ (∃ b, implementsXMLUnmarshaler t = .ok b) ∧
    (∃ b, implementsErrorInfoHandler t = .ok b) ∧ ∃ b, implementsFilterConstructor t = .ok b := by
  refine ⟨xml_total h, xml_total h, ?_, ?_⟩
  · unfold implementsErrorInfoHandler
    split
    · rename_i a r v hf
      obtain ⟨m, hm, _, hs⟩ := first_mem hf
      have ha := h' m hm a (by simp [hs])
      split
      · exact ⟨_, rfl⟩
      · cases a with
        | ptr e =>
          cases e with
          | named q k => cases q with
            | none => exact absurd rfl (ha k).2.1
            | some p => exact ⟨_, rfl⟩
          | _ => exact ⟨_, rfl⟩
        | _ => exact ⟨_, rfl⟩
    · exact ⟨_, rfl⟩
  · have hc : ∀ m ∈ t.listed, ∃ o, ctorMethod m = .ok o := by
      intro m hm
      have : ∃ b, isInitV2 m.sig = .ok b := by
        unfold isInitV2
        split
        · rename_i a b hs _
          have ha := h m hm a (by simp [hs])
          have : ∃ x, isStringColumnMap a = .ok x := by
            cases a with
            | map k e =>
              rw [isStringColumnMap]
              split
              · exact ⟨_, rfl⟩
              · cases e with
                | named q n => cases q with
                  | none => exact absurd rfl ((ha n).2.2 k)
                  | some p => exact ⟨_, rfl⟩
                | _ => exact ⟨_, rfl⟩
            | _ => exact ⟨_, rfl⟩
          obtain ⟨x, hx⟩ := this
          exact ⟨_, by rw [hx]; rfl⟩
        · exact ⟨_, rfl⟩
      obtain ⟨b, hb⟩ := this
      unfold ctorMethod
      rw [hb]
      repeat' split
      all_goals exact ⟨_, rfl⟩
    have hl : ∀ (ms : List Method), (∀ m ∈ ms, ∃ o, ctorMethod m = .ok o) → ∀ f,
        ∃ o, loop ctorMethod f ms = .ok o := by
      intro ms
      induction ms with
      | nil => exact fun _ f => ⟨_, rfl⟩
      | cons m ms ih =>
        intro hms f
        obtain ⟨o, hc⟩ := hms m (List.mem_cons_self ..)
        have ih := ih fun x hx => hms x (List.mem_cons_of_mem _ hx)
        rw [loop, hc]
        match o with
        | none => exact ih f
        | some false => exact ⟨_, rfl⟩
        | some true => exact ih _
    obtain ⟨o, ho⟩ := hl t.listed hc []
    exact ⟨_, by rw [implementsFilterConstructor, ho]; rfl⟩

end Verif.Typesutil
