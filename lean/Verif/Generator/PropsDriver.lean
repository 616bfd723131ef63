import Verif.Generator.Driver

/-
Property C102: what is passed or scanned without a converter is of a type that database/sql deals with.
-/
namespace Verif.Generator

open Verif.Analysis Verif.Postgres Verif.Pgsql

variable {own : NamedInfo → Bool} {ifc : IfaceHdr → Bool}

/-! ### Literals -/

theorem bare_valuers : (compTable.all fun r => !(r.entry.valuer == []) || bareLits.contains r.lit) = true := by
  decide +kernel
theorem bare_scanners : (compTable.all fun r => !(r.entry.scanner == []) || bareLits.contains r.lit) = true := by
  decide +kernel

theorem bare_head (s : Bytes) (h : s ∈ bareLits) (c : Char) (t : Bytes) (e : s = c :: t) :
    c ∈ ['b', 's', 't', 'i', 'u', 'f'] ∨ s = b!"[]byte" := by
  subst e
  have : (bareLits.all fun s => s == b!"[]byte" || (s.head?.any fun c => ['b', 's', 't', 'i', 'u', 'f'].contains c)) = true := by
    decide +kernel
  have := List.all_eq_true.1 this _ h
  simp only [Bool.or_eq_true, beq_iff_eq, List.head?_cons, Option.any_some, List.contains_iff_mem] at this
  exact this.symm

theorem bare_dot (s : Bytes) (h : s ∈ bareLits) (hd : '.' ∈ s) : s = b!"time.Time" := by
  have : (bareLits.all fun s => s == b!"time.Time" || !s.contains '.') = true := by decide +kernel
  have := List.all_eq_true.1 this _ h
  simpa [hd] using this

theorem split_time {a b : Bytes} (ha : '.' ∉ a) (h : a ++ b!"." ++ b = b!"time.Time") : a = b!"time" ∧ b = b!"Time" := by
  have : ∀ (x y a b : Bytes), '.' ∉ a → '.' ∉ x → a ++ '.' :: b = x ++ '.' :: y → a = x ∧ b = y := by
    intro x y
    induction x with
    | nil =>
      intro a b ha _ h
      cases a with
      | nil => simpa using h
      | cons c a =>
        simp only [List.cons_append, List.nil_append, List.cons.injEq] at h
        exact absurd (by rw [h.1]; simp) ha
    | cons d x ih =>
      intro a b ha hx h
      cases a with
      | nil =>
        simp only [List.cons_append, List.nil_append, List.cons.injEq] at h
        exact absurd (by rw [← h.1]; simp) hx
      | cons c a =>
        simp only [List.cons_append, List.cons.injEq] at h
        obtain ⟨rfl, h⟩ := h
        have := ih a b (fun hm => ha (List.mem_cons_of_mem _ hm)) (fun hm => hx (List.mem_cons_of_mem _ hm)) h
        exact ⟨by rw [this.1], this.2⟩
  refine this b!"time" b!"Time" a b ha (by decide) ?_
  simpa using h

theorem named_time {i : NamedInfo} {p : Pkg} {u : Ty} (hp : Declared i p)
    (h : p.name ++ b!"." ++ i.name ∈ bareLits) : Direct own ifc (.named i u) := by
  have := split_time hp.dot (bare_dot _ h (by simp))
  exact .time i u p hp.pkg (hp.time this.1 this.2) this.2

theorem basic_bare (k : Kind) (h : THdr) (hk : h.kind = k) (hl : leafLiteral h ∈ bareLits) : driverKind k = true := by
  subst hk
  unfold leafLiteral at hl
  generalize h.kind = k at hl
  cases k <;> first | rfl | (exfalso; revert hl; simp only [kindName]; first | decide | (split <;> decide))

theorem byte_lit (pkg : Bytes) (e : Ty) (ti : TypeInfo) (b : Ty) (hp : Proper e)
    (h : typeInfo pkg none e = .ok (ti, b)) (hl : literal ti false = b!"byte") : isByteTy e = true := by
  cases e with
  | basic k nm =>
    simp only [typeInfo, Res.ok.injEq, Prod.mk.injEq] at h
    obtain ⟨rfl, _⟩ := h
    simp only [literal, namedHdr, List.length_nil, Nat.lt_irrefl, if_false, leafLiteral, gt_iff_lt] at hl
    cases k <;> first | rfl | (exfalso; revert hl; simp only [kindName]; first | decide | (split <;> decide) | simp)
  | named i u =>
    obtain ⟨⟨p, hd⟩, hu, _⟩ := hp
    rw [typeInfo, hd.pkg] at h
    have := typeInfo_named hd.pkg hd.name hd.pkgName u h hu false
    rw [this] at hl
    exact absurd (show '.' ∈ b!"byte" by rw [← hl]; simp) (by decide)
  | ptr e =>
    simp only [typeInfo, Res.map_eq_ok] at h
    obtain ⟨q, hq, h⟩ := h
    simp only [Prod.mk.injEq] at h
    obtain ⟨rfl, rfl⟩ := h
    simp [literal, namedHdr] at hl
  | slice e =>
    simp only [typeInfo, Res.map_eq_ok] at h
    obtain ⟨q, hq, h⟩ := h
    simp only [Prod.mk.injEq] at h
    obtain ⟨rfl, rfl⟩ := h
    simp [literal, namedHdr] at hl
  | array n e =>
    simp only [typeInfo, Res.map_eq_ok] at h
    obtain ⟨q, hq, h⟩ := h
    simp only [Prod.mk.injEq] at h
    obtain ⟨rfl, rfl⟩ := h
    simp [literal, namedHdr] at hl
  | map k e =>
    simp only [typeInfo, Res.bind_eq_ok, Res.map_eq_ok] at h
    obtain ⟨qk, hqk, q, hq, h⟩ := h
    simp only [Prod.mk.injEq] at h
    obtain ⟨rfl, rfl⟩ := h
    simp [literal, namedHdr] at hl
  | iface hh m =>
    simp only [typeInfo, Res.ok.injEq, Prod.mk.injEq] at h
    obtain ⟨rfl, _⟩ := h
    exfalso; revert hl
    simp only [literal, namedHdr, List.length_nil, Nat.lt_irrefl, if_false, leafLiteral, gt_iff_lt]
    split <;> decide
  | chan | func _ _ | struct _ =>
    simp only [typeInfo, Res.ok.injEq, Prod.mk.injEq] at h
    obtain ⟨rfl, _⟩ := h
    exfalso; revert hl
    simp only [literal, namedHdr, List.length_nil, Nat.lt_irrefl, if_false, leafLiteral, gt_iff_lt]
    decide

/-- A type whose literal is one of those is dealt with by database/sql. -/
theorem bare_literal (pkg : Bytes) (t : Ty) (ti : TypeInfo) (b : Ty) (hp : Proper t)
    (h : typeInfo pkg none t = .ok (ti, b)) (hl : literal ti false ∈ bareLits) : Direct own ifc t := by
  cases t with
  | basic k nm =>
    simp only [typeInfo, Res.ok.injEq, Prod.mk.injEq] at h
    obtain ⟨rfl, _⟩ := h
    simp only [literal, namedHdr, List.length_nil, Nat.lt_irrefl, if_false, gt_iff_lt] at hl
    exact .basic k nm (basic_bare k _ rfl hl)
  | named i u =>
    obtain ⟨⟨p, hd⟩, hu, _⟩ := hp
    rw [typeInfo, hd.pkg] at h
    have := typeInfo_named hd.pkg hd.name hd.pkgName u h hu false
    rw [this] at hl
    exact named_time hd hl
  | ptr e =>
    simp only [typeInfo, Res.map_eq_ok] at h
    obtain ⟨q, hq, h⟩ := h
    simp only [Prod.mk.injEq] at h
    obtain ⟨rfl, rfl⟩ := h
    simp only [literal, namedHdr, List.length_nil, Nat.lt_irrefl, if_false, gt_iff_lt, Bool.false_eq_true] at hl
    rcases bare_head _ hl _ _ rfl with h | h <;> simp at h
  | slice e =>
    simp only [typeInfo, Res.map_eq_ok] at h
    obtain ⟨q, hq, h⟩ := h
    simp only [Prod.mk.injEq] at h
    obtain ⟨rfl, rfl⟩ := h
    simp only [literal, namedHdr, List.length_nil, Nat.lt_irrefl, if_false, gt_iff_lt] at hl
    rcases bare_head _ hl _ _ rfl with h | h
    · simp at h
    · exact .bytes e (byte_lit pkg e q.1 q.2 hp hq (by simpa using h))
  | array n e =>
    simp only [typeInfo, Res.map_eq_ok] at h
    obtain ⟨q, hq, h⟩ := h
    simp only [Prod.mk.injEq] at h
    obtain ⟨rfl, rfl⟩ := h
    simp only [literal, namedHdr, List.length_nil, Nat.lt_irrefl, if_false, gt_iff_lt] at hl
    rcases bare_head _ hl _ _ rfl with h | h
    · simp at h
    · exfalso
      cases hi : itoa n with
      | nil => exact itoa_ne_nil n hi
      | cons c s =>
        rw [hi] at h
        simp only [List.cons_append, List.nil_append, List.cons.injEq, true_and] at h
        have := isDigit_of_mem_itoa (n := n) (c := c) (by rw [hi]; simp)
        rw [h.1] at this
        exact absurd this (by decide)
  | map k e =>
    simp only [typeInfo, Res.bind_eq_ok, Res.map_eq_ok] at h
    obtain ⟨qk, hqk, q, hq, h⟩ := h
    simp only [Prod.mk.injEq] at h
    obtain ⟨rfl, rfl⟩ := h
    simp only [literal, namedHdr, List.length_nil, Nat.lt_irrefl, if_false, gt_iff_lt] at hl
    rcases bare_head _ hl _ _ rfl with h | h <;> simp at h
  | iface hh m =>
    simp only [typeInfo, Res.ok.injEq, Prod.mk.injEq] at h
    obtain ⟨rfl, _⟩ := h
    exfalso; revert hl
    simp only [literal, namedHdr, List.length_nil, Nat.lt_irrefl, if_false, leafLiteral, gt_iff_lt]
    split <;> decide
  | chan | func _ _ | struct _ =>
    simp only [typeInfo, Res.ok.injEq, Prod.mk.injEq] at h
    obtain ⟨rfl, _⟩ := h
    exfalso; revert hl
    simp only [literal, namedHdr, List.length_nil, Nat.lt_irrefl, if_false, leafLiteral, gt_iff_lt]
    decide

theorem kind_bare (h : THdr) (hb : h.kind.isBasic = true) (hl : genericLiteral (.leaf h) ∈ bareLits) :
    driverKind h.kind = true := by
  unfold genericLiteral at hl
  have e : (TypeInfo.leaf h).kind = h.kind := rfl
  rw [e, if_pos hb] at hl
  generalize h.kind = k at hl hb
  revert hl
  cases k <;> first | (intro _; rfl) | (intro hl; exfalso; revert hl; repeat' split
                                        all_goals decide)

theorem generic_literal {x : TypeInfo} (hb : x.kind.isBasic = false) (hp : x.kind ≠ .ptr) :
    genericLiteral x = literal x false := by
  unfold genericLiteral
  rw [if_neg (by simp [hb])]
  cases x with
  | leaf h => rfl
  | keyed h k e => rfl
  | elem h e =>
    unfold literal
    split
    · rfl
    · have : h.kind ≠ .ptr := hp
      split <;> first | rfl | contradiction

/-- A type by whose literal a row without a converter is found is dealt with by database/sql. -/
theorem bare_generic {t : TypeInfo} {g : Ty} (hs : Sees t g) (hp : Proper g) (hl : genericLiteral t ∈ bareLits) :
    Direct own ifc g := by
  obtain ⟨pkg, b, h⟩ := hs
  cases g with
  | basic k nm =>
    have h0 := h
    simp only [typeInfo, Res.ok.injEq, Prod.mk.injEq] at h
    obtain ⟨rfl, _⟩ := h
    cases hb : k.isBasic with
    | true => exact .basic k nm (kind_bare _ hb hl)
    | false =>
      refine bare_literal pkg _ _ _ hp h0 ?_
      cases hk : decide (k = .ptr) with
      | true =>
        rw [decide_eq_true_iff] at hk
        subst hk
        exact hl
      | false =>
        rw [decide_eq_false_iff_not] at hk
        rw [generic_literal] at hl
        · exact hl
        · exact hb
        · exact hk
  | ptr e =>
    simp only [typeInfo, Res.map_eq_ok] at h
    obtain ⟨q, hq, h⟩ := h
    simp only [Prod.mk.injEq] at h
    obtain ⟨rfl, rfl⟩ := h
    exact .ptr e (bare_literal pkg e q.1 q.2 hp hq hl)
  | named i u =>
    obtain ⟨⟨p, hd⟩, hu, hpu⟩ := hp
    rw [typeInfo, hd.pkg] at h
    have hn := typeInfo_named hd.pkg hd.name hd.pkgName u h hu
    cases hb : t.kind.isBasic with
    | false =>
      have : genericLiteral t = literal t true := by
        unfold genericLiteral
        rw [if_neg (by simp [hb])]
      rw [this, hn true] at hl
      exact named_time hd hl
    | true =>
      cases u with
      | named j v => exact absurd rfl (hu j v)
      | basic k nm =>
        simp only [typeInfo, Res.ok.injEq, Prod.mk.injEq] at h
        obtain ⟨rfl, _⟩ := h
        exact .named i _ (.basic k nm (kind_bare _ hb hl))
      | slice e | array n e | ptr e =>
        simp only [typeInfo, Res.map_eq_ok] at h
        obtain ⟨q, hq, h⟩ := h
        simp only [Prod.mk.injEq] at h
        obtain ⟨rfl, rfl⟩ := h
        cases hb
      | map k e =>
        simp only [typeInfo, Res.bind_eq_ok, Res.map_eq_ok] at h
        obtain ⟨qk, hqk, q, hq, h⟩ := h
        simp only [Prod.mk.injEq] at h
        obtain ⟨rfl, rfl⟩ := h
        cases hb
      | iface hh m =>
        simp only [typeInfo, Res.ok.injEq, Prod.mk.injEq] at h
        obtain ⟨rfl, _⟩ := h
        cases hb
      | chan | func _ _ | struct _ =>
        simp only [typeInfo, Res.ok.injEq, Prod.mk.injEq] at h
        obtain ⟨rfl, _⟩ := h
        cases hb
  | slice e | array n e =>
    have h0 := h
    simp only [typeInfo, Res.map_eq_ok] at h
    obtain ⟨q, hq, h⟩ := h
    simp only [Prod.mk.injEq] at h
    obtain ⟨rfl, rfl⟩ := h
    refine bare_literal pkg _ _ _ hp h0 ?_
    rwa [← generic_literal (by rfl) (by simp [TypeInfo.kind, TypeInfo.hdr, namedHdr])]
  | map k e =>
    have h0 := h
    simp only [typeInfo, Res.bind_eq_ok, Res.map_eq_ok] at h
    obtain ⟨qk, hqk, q, hq, h⟩ := h
    simp only [Prod.mk.injEq] at h
    obtain ⟨rfl, rfl⟩ := h
    refine bare_literal pkg _ _ _ hp h0 ?_
    rwa [← generic_literal (by rfl) (by simp [TypeInfo.kind, TypeInfo.hdr, namedHdr])]
  | iface hh m =>
    have h0 := h
    simp only [typeInfo, Res.ok.injEq, Prod.mk.injEq] at h
    obtain ⟨rfl, _⟩ := h
    refine bare_literal pkg _ _ _ hp h0 ?_
    rwa [← generic_literal (by rfl) (by simp [TypeInfo.kind, TypeInfo.hdr, namedHdr])]
  | chan | func _ _ | struct _ =>
    have h0 := h
    simp only [typeInfo, Res.ok.injEq, Prod.mk.injEq] at h
    obtain ⟨rfl, _⟩ := h
    refine bare_literal pkg _ _ _ hp h0 ?_
    rwa [← generic_literal (by rfl) (by simp [TypeInfo.kind, TypeInfo.hdr, namedHdr])]

/-! ### Types with methods of their own, and documents -/

theorem hdr_seen {pkg : Bytes} {g : Ty} {t : TypeInfo} {b : Ty} (h : typeInfo pkg none g = .ok (t, b))
    (hp : Proper g) : (t.hdr.isValuer = true → Taken g) ∧
      (t.hdr.isScanner = true → t.kind ≠ .interface → Filled g) := by
  cases g with
  | named i u =>
    obtain ⟨⟨p, hd⟩, hu, _⟩ := hp
    rw [typeInfo, hd.pkg] at h
    have : t.hdr.isValuer = i.isValuer ∧ t.hdr.isScanner = i.isScanner := by
      cases u with
      | named j v => exact absurd rfl (hu j v)
      | slice e | array n e | ptr e =>
        simp only [typeInfo, Res.map_eq_ok] at h
        obtain ⟨q, hq, h⟩ := h
        simp only [Prod.mk.injEq] at h
        obtain ⟨rfl, rfl⟩ := h
        exact ⟨rfl, rfl⟩
      | map k e =>
        simp only [typeInfo, Res.bind_eq_ok, Res.map_eq_ok] at h
        obtain ⟨qk, hqk, q, hq, h⟩ := h
        simp only [Prod.mk.injEq] at h
        obtain ⟨rfl, rfl⟩ := h
        exact ⟨rfl, rfl⟩
      | basic _ _ | iface _ _ | chan | func _ _ | struct _ =>
        simp only [typeInfo, Res.ok.injEq, Prod.mk.injEq] at h
        obtain ⟨rfl, _⟩ := h
        exact ⟨rfl, rfl⟩
    rw [this.1, this.2]
    exact ⟨fun h => .own i u h, fun h _ => .own i u h⟩
  | iface hh m =>
    simp only [typeInfo, Res.ok.injEq, Prod.mk.injEq] at h
    obtain ⟨rfl, _⟩ := h
    exact ⟨fun h => .iface hh m h, fun _ h => absurd rfl h⟩
  | slice e | array n e | ptr e =>
    simp only [typeInfo, Res.map_eq_ok] at h
    obtain ⟨q, hq, h⟩ := h
    simp only [Prod.mk.injEq] at h
    obtain ⟨rfl, rfl⟩ := h
    exact ⟨fun h => (by cases h), fun h => (by cases h)⟩
  | map k e =>
    simp only [typeInfo, Res.bind_eq_ok, Res.map_eq_ok] at h
    obtain ⟨qk, hqk, q, hq, h⟩ := h
    simp only [Prod.mk.injEq] at h
    obtain ⟨rfl, rfl⟩ := h
    exact ⟨fun h => (by cases h), fun h => (by cases h)⟩
  | basic _ _ | chan | func _ _ | struct _ =>
    simp only [typeInfo, Res.ok.injEq, Prod.mk.injEq] at h
    obtain ⟨rfl, _⟩ := h
    exact ⟨fun h => (by cases h), fun h => (by cases h)⟩

/-- What the analyzer takes for a pointer is one, or a type defined as one. -/
theorem ptr_seen {pkg : Bytes} {n : Option NamedInfo} {g : Ty} {t e : TypeInfo} {b : Ty}
    (h : typeInfo pkg n g = .ok (t, b)) (hn : ∀ i u, g ≠ .named i u) (hk : t.kind = .ptr) (he : t.elem? = some e) :
    ∃ x, g = .ptr x ∧ ∃ b', typeInfo pkg none x = .ok (e, b') := by
  cases g with
  | named i u => exact absurd rfl (hn i u)
  | ptr x =>
    simp only [typeInfo, Res.map_eq_ok] at h
    obtain ⟨q, hq, h⟩ := h
    simp only [Prod.mk.injEq] at h
    obtain ⟨rfl, rfl⟩ := h
    cases he
    exact ⟨x, rfl, q.2, hq⟩
  | slice x | array _ x =>
    simp only [typeInfo, Res.map_eq_ok] at h
    obtain ⟨q, hq, h⟩ := h
    simp only [Prod.mk.injEq] at h
    obtain ⟨rfl, rfl⟩ := h
    cases n <;> cases hk
  | map k x =>
    simp only [typeInfo, Res.bind_eq_ok, Res.map_eq_ok] at h
    obtain ⟨qk, hqk, q, hq, h⟩ := h
    simp only [Prod.mk.injEq] at h
    obtain ⟨rfl, rfl⟩ := h
    cases n <;> cases hk
  | basic _ _ | iface _ _ | chan | func _ _ | struct _ =>
    simp only [typeInfo, Res.ok.injEq, Prod.mk.injEq] at h
    obtain ⟨rfl, _⟩ := h
    cases he

/-- The question asked of a type or of what it points to. -/
theorem here_seen {pkg : Bytes} {g : Ty} {t : TypeInfo} {b : Ty} (h : typeInfo pkg none g = .ok (t, b))
    (hp : Proper g) (P : TypeInfo → Prop) (hP : ∀ x y b', Proper x → typeInfo pkg none x = .ok (y, b') → P y →
      Direct own ifc x) (hh : P t ∨ t.kind = .ptr ∧ ∃ e, t.elem? = some e ∧ P e) : Direct own ifc g := by
  rcases hh with hh | ⟨hk, e, he, hh⟩
  · exact hP g t b hp h hh
  · by_cases hn : ∃ i u, g = .named i u
    · obtain ⟨i, u, rfl⟩ := hn
      obtain ⟨⟨p, hd⟩, hu, hpu⟩ := hp
      rw [typeInfo, hd.pkg] at h
      obtain ⟨x, rfl, b', hx⟩ := ptr_seen h hu hk he
      exact .named i _ (.ptr x (hP x e b' hpu hx hh))
    · obtain ⟨x, rfl, b', hx⟩ := ptr_seen h (fun i u hg => hn ⟨i, u, hg⟩) hk he
      exact .ptr x (hP x e b' hp hx hh)

theorem any_some {α : Type} {o : Option α} {p : α → Bool} (h : o.any p = true) : ∃ e, o = some e ∧ p e = true := by
  cases o with
  | none => cases h
  | some e => exact ⟨e, rfl, h⟩

theorem here_iff {f : THdr → Bool} {t : TypeInfo} (h : TypeInfo.here f t = true) :
    f t.hdr = true ∨ t.kind = .ptr ∧ ∃ e, t.elem? = some e ∧ f e.hdr = true := by
  simp only [TypeInfo.here, Bool.or_eq_true, Bool.and_eq_true, decide_eq_true_eq] at h
  rcases h with h | ⟨hk, h⟩
  · exact .inl h
  · exact .inr ⟨hk, any_some h⟩

theorem taken_valuer {t : TypeInfo} {g : Ty} (hs : Sees t g) (hp : Proper g) (h : implementsValuer t = true) :
    Taken g := by
  obtain ⟨pkg, b, hs⟩ := hs
  exact here_seen hs hp (fun t => t.hdr.isValuer = true) (fun x y b' hx hy => (hdr_seen hy hx).1) (here_iff h)

theorem filled_scanner {t : TypeInfo} {g : Ty} (hs : Sees t g) (hp : Proper g) (h : implementsScanner t = true) :
    Filled g := by
  obtain ⟨pkg, b, hs⟩ := hs
  refine here_seen hs hp (fun t => (t.hdr.isScanner && t.hdr.kind ≠ .interface) = true)
    (fun x y b' hx hy hh => ?_) (here_iff h)
  simp only [Bool.and_eq_true, decide_eq_true_eq] at hh
  exact (hdr_seen hy hx).2 hh.1 hh.2

theorem basic_seen {pkg : Bytes} {n : Option NamedInfo} {g : Ty} {t : TypeInfo} {b : Ty}
    (h : typeInfo pkg n g = .ok (t, b)) (hn : ∀ i u, g ≠ .named i u) (hk : t.kind.isBasic = true) :
    ∃ nm, g = .basic t.kind nm := by
  cases g with
  | named i u => exact absurd rfl (hn i u)
  | basic k nm =>
    simp only [typeInfo, Res.ok.injEq, Prod.mk.injEq] at h
    obtain ⟨rfl, _⟩ := h
    cases n <;> exact ⟨nm, rfl⟩
  | ptr x | slice x | array _ x =>
    simp only [typeInfo, Res.map_eq_ok] at h
    obtain ⟨q, hq, h⟩ := h
    simp only [Prod.mk.injEq] at h
    obtain ⟨rfl, rfl⟩ := h
    cases n <;> cases hk
  | map k x =>
    simp only [typeInfo, Res.bind_eq_ok, Res.map_eq_ok] at h
    obtain ⟨qk, hqk, q, hq, h⟩ := h
    simp only [Prod.mk.injEq] at h
    obtain ⟨rfl, rfl⟩ := h
    cases n <;> cases hk
  | iface _ _ | chan | func _ _ | struct _ =>
    simp only [typeInfo, Res.ok.injEq, Prod.mk.injEq] at h
    obtain ⟨rfl, _⟩ := h
    cases n <;> cases hk

/-- A type of a basic kind is a basic type or defined as one. -/
theorem kind_seen {pkg : Bytes} {g : Ty} {t : TypeInfo} {b : Ty} (h : typeInfo pkg none g = .ok (t, b))
    (hp : Proper g) (hk : t.kind.isBasic = true) :
    (∃ nm, g = .basic t.kind nm) ∨ ∃ i nm, g = .named i (.basic t.kind nm) := by
  by_cases hn : ∃ i u, g = .named i u
  · obtain ⟨i, u, rfl⟩ := hn
    obtain ⟨⟨p, hd⟩, hu, hpu⟩ := hp
    rw [typeInfo, hd.pkg] at h
    obtain ⟨nm, rfl⟩ := basic_seen h hu hk
    exact .inr ⟨i, nm, rfl⟩
  · exact .inl (basic_seen h (fun i u hg => hn ⟨i, u, hg⟩) hk)

theorem direct_string {t : TypeInfo} {g : Ty} (hs : Sees t g) (hp : Proper g) (h : t.is .string = true) :
    Direct own ifc g := by
  obtain ⟨pkg, b, hs⟩ := hs
  refine here_seen hs hp (fun t => t.kind = .string) (fun x y b' hx hy hh => ?_) ?_
  · rcases kind_seen hy hx (by rw [hh]; rfl) with ⟨nm, rfl⟩ | ⟨i, nm, rfl⟩
    · exact .basic _ _ (by rw [hh]; rfl)
    · exact .named _ _ (.basic _ _ (by rw [hh]; rfl))
  · simp only [TypeInfo.is, Bool.or_eq_true, Bool.and_eq_true, decide_eq_true_eq] at h
    rcases h with h | ⟨hk, h⟩
    · exact .inl h
    · obtain ⟨e, he, h⟩ := any_some h
      exact .inr ⟨hk, e, he, by simpa using h⟩

theorem slice_seen {pkg : Bytes} {n : Option NamedInfo} {g : Ty} {t e : TypeInfo} {b : Ty}
    (h : typeInfo pkg n g = .ok (t, b)) (hn : ∀ i u, g ≠ .named i u) (hk : t.kind = .slice) (he : t.elem? = some e) :
    ∃ x, g = .slice x ∧ ∃ b', typeInfo pkg none x = .ok (e, b') := by
  cases g with
  | named i u => exact absurd rfl (hn i u)
  | slice x =>
    simp only [typeInfo, Res.map_eq_ok] at h
    obtain ⟨q, hq, h⟩ := h
    simp only [Prod.mk.injEq] at h
    obtain ⟨rfl, rfl⟩ := h
    cases he
    exact ⟨x, rfl, q.2, hq⟩
  | ptr x | array _ x =>
    simp only [typeInfo, Res.map_eq_ok] at h
    obtain ⟨q, hq, h⟩ := h
    simp only [Prod.mk.injEq] at h
    obtain ⟨rfl, rfl⟩ := h
    cases n <;> cases hk
  | map k x =>
    simp only [typeInfo, Res.bind_eq_ok, Res.map_eq_ok] at h
    obtain ⟨qk, hqk, q, hq, h⟩ := h
    simp only [Prod.mk.injEq] at h
    obtain ⟨rfl, rfl⟩ := h
    cases n <;> cases hk
  | basic _ _ | iface _ _ | chan | func _ _ | struct _ =>
    simp only [typeInfo, Res.ok.injEq, Prod.mk.injEq] at h
    obtain ⟨rfl, _⟩ := h
    cases he

theorem direct_bytes {t : TypeInfo} {g : Ty} (hs : Sees t g) (hp : Proper g) (h : isByteSlice t = true) :
    Direct own ifc g := by
  obtain ⟨pkg, b, hs⟩ := hs
  simp only [isByteSlice, Bool.and_eq_true, decide_eq_true_eq] at h
  obtain ⟨hk, h⟩ := h
  obtain ⟨e, he, h⟩ := any_some h
  have he8 : e.kind = .uint8 := by simpa using h
  have main : ∀ x b', Proper x → typeInfo pkg none x = .ok (e, b') → isByteTy x = true := by
    intro x b' hx hy
    rcases kind_seen hy hx (by rw [he8]; rfl) with ⟨nm, rfl⟩ | ⟨i, nm, rfl⟩ <;> simp [isByteTy, he8]
  by_cases hn : ∃ i u, g = .named i u
  · obtain ⟨i, u, rfl⟩ := hn
    obtain ⟨⟨p, hd⟩, hu, hpu⟩ := hp
    rw [typeInfo, hd.pkg] at hs
    obtain ⟨x, rfl, b', hx⟩ := slice_seen hs hu hk he
    exact .named i _ (.bytes x (main x b' hpu hx))
  · obtain ⟨x, rfl, b', hx⟩ := slice_seen hs (fun i u hg => hn ⟨i, u, hg⟩) hk he
    exact .bytes x (main x b' hp hx)

theorem direct_doc {able ill : Bool} {t : TypeInfo} {conv : Bytes} {e : DbErr} {g : Ty} (hc : conv ≠ [])
    (h : docConv able ill t conv e = .ok []) (hs : Sees t g) (hp : Proper g) : Direct own ifc g := by
  unfold docConv at h
  split at h
  · simp only [Res.ok.injEq] at h; exact absurd h hc
  split at h
  · cases h
  split at h
  · exact direct_bytes hs hp (by assumption)
  split at h
  · exact direct_string hs hp (by assumption)
  · simp only [Res.ok.injEq] at h; exact absurd h hc

/-! ### Fields -/

theorem bare_row {f : CompEntry → Bytes} (hf : (compTable.all fun r => !(f r.entry == []) || bareLits.contains r.lit) = true)
    {r : CompRow} (hr : r ∈ compTable) (h : f r.entry = []) : r.lit ∈ bareLits := by
  have := List.all_eq_true.1 hf r hr
  simpa [h] using this

/-- **C102** A field that is written without a converter is of a type that database/sql passes to the driver. -/
theorem C102_field_write {cat : Catalog} {f : FieldInfo} {col : Column} {g : Ty} (hs : Sees f.type g)
    (hp : Proper g) (h : writeConv cat f col = .ok []) : Taken g := by
  unfold writeConv at h
  split at h
  · exact taken_valuer hs hp (by assumption)
  split at h
  · exact direct_doc (by decide) h hs hp
  split at h
  · exact direct_doc (by decide) h hs hp
  simp only [tableConv, Res.bind_eq_ok] at h
  obtain ⟨m, _, h⟩ := h
  cases hc : typeCompat cat col.type f.type m with
  | none => rw [hc] at h; cases h
  | some ce =>
    rw [hc] at h
    simp only [Res.ok.injEq] at h
    obtain ⟨r, hr, hl, rfl⟩ := typeCompat_row hc
    exact bare_generic hs hp (hl ▸ bare_row (f := (·.valuer)) bare_valuers hr h)

/-- **C102** A field that is read without a converter is of a type that database/sql scans into. -/
theorem C102_field_read {cat : Catalog} {f : FieldInfo} {col : Column} {g : Ty} (hs : Sees f.type g)
    (hp : Proper g) (h : readConv cat f col = .ok []) : Filled g := by
  unfold readConv at h
  split at h
  · cases h
  split at h
  · exact filled_scanner hs hp (by assumption)
  split at h
  · exact direct_doc (by decide) h hs hp
  split at h
  · cases h
  split at h
  · exact direct_doc (by decide) h hs hp
  simp only [tableConv, Res.bind_eq_ok] at h
  obtain ⟨m, _, h⟩ := h
  cases hc : typeCompat cat col.type f.type m with
  | none => rw [hc] at h; cases h
  | some ce =>
    rw [hc] at h
    simp only [Res.ok.injEq] at h
    obtain ⟨r, hr, hl, rfl⟩ := typeCompat_row hc
    exact bare_generic hs hp (hl ▸ bare_row (f := (·.scanner)) bare_scanners hr h)

theorem cond_type {t : TypeInfo} {g : Ty} (hs : Sees t g) (hp : Proper g)
    (h : genericLiteral (condType t) ∈ bareLits) : Taken g := by
  unfold condType at h
  split at h
  · rename_i hv
    simp only [Bool.and_eq_true, Bool.not_eq_true'] at hv
    exact taken_valuer hs hp (by simp [implementsValuer, TypeInfo.here, hv.2])
  · exact bare_generic hs hp h

theorem scanOps_row {cat : Catalog} {name : Bytes} {left : Nat} {t : TypeInfo} : ∀ {ks : List OpKey}
    {comp : Option CompEntry} {ce : CompEntry},
    (∀ e, comp = some e → ∃ r ∈ compTable, r.lit = genericLiteral t ∧ r.entry = e) →
    scanOps cat name left t comp ks = some ce → ∃ r ∈ compTable, r.lit = genericLiteral t ∧ r.entry = ce
  | [], comp, ce, hc, h => hc ce h
  | k :: ks, comp, ce, hc, h => by
    unfold scanOps at h
    split at h
    · exact scanOps_row hc h
    · split at h
      · exact scanOps_row hc h
      · rename_i e he
        obtain ⟨rt, _, hrt⟩ := Option.bind_eq_some_iff.1 he
        have hrow := typeCompat_row hrt
        split at h
        · cases h; exact hrow
        · refine scanOps_row (fun e' he' => ?_) h
          split at he'
          · cases he'; exact hrow
          · exact hc e' he'

theorem findPair_row {cat : Catalog} {f : FieldConditional} : ∀ {ps : List (PgType × PgType)} {v : Bytes},
    findPair cat f ps = .ok v → ∃ r ∈ compTable, r.lit = genericLiteral (condType f.fieldType) ∧ r.entry.valuer = v
  | [], v, h => by cases h
  | (l, r) :: ps, v, h => by
    unfold findPair at h
    split at h
    · split at h
      · rename_i ce hce
        cases h
        obtain ⟨r, hr, hl, rfl⟩ := typeCompat_row hce
        exact ⟨r, hr, hl, rfl⟩
      · exact findPair_row h
    · exact findPair_row h

/-- The converter of a condition is the valuer of a row for the type of the field. -/
theorem cond_row {cat : Catalog} {f f' : FieldConditional} (h : checkFieldCond cat f = .ok f') :
    f'.fieldType = f.fieldType ∧
    ∃ r ∈ compTable, r.lit = genericLiteral (condType f.fieldType) ∧ r.entry.valuer = f'.valuer := by
  unfold checkFieldCond at h
  simp only [Res.map_eq_ok] at h
  obtain ⟨v, h, rfl⟩ := h
  refine ⟨rfl, ?_⟩
  split at h
  · unfold checkFieldCondFunc at h
    split at h
    · cases h
    · simp only [Res.bind_eq_ok] at h
      obtain ⟨ps, _, h⟩ := h
      exact findPair_row h
  · simp only [checkFieldCondPlain, Res.bind_eq_ok] at h
    obtain ⟨ctyp, _, direct, hd, h⟩ := h
    split at h
    · rename_i ce
      cases h
      generalize (if f.column.type.isEnum = true then Oid.text else f.column.type.oid) = coid at hd
      split at hd
      · simp only [Res.map_eq_ok] at hd
        obtain ⟨m, _, hd⟩ := hd
        obtain ⟨r, hr, hl, rfl⟩ := typeCompat_row hd
        exact ⟨r, hr, hl, rfl⟩
      · cases hd
    · split at h
      · rename_i ce hce
        cases h
        obtain ⟨r, hr, hl, rfl⟩ := scanOps_row (fun e he => (by cases he)) hce
        exact ⟨r, hr, hl, rfl⟩
      · cases h

/-- **C102** A value that is compared without a converter is of a type that database/sql passes to the driver. -/
theorem C102_cond {cat : Catalog} {f f' : FieldConditional} {g : Ty} (h : checkFieldCond cat f = .ok f')
    (hs : Sees f.fieldType g) (hp : Proper g) (hv : f'.valuer = []) : Taken g := by
  obtain ⟨_, r, hr, hl, hr'⟩ := cond_row h
  rw [hv] at hr'
  exact cond_type hs hp (hl ▸ bare_row (f := (·.valuer)) bare_valuers hr hr')

/-! ### Queries -/

theorem addConv_converted {bare : TypeInfo → Prop} {fn : Bytes} {e : GoExpr} {t : TypeInfo}
    (h : fn = [] → bare t) : Converted bare (addConv fn e) e t := by
  unfold addConv
  split
  · exact .inr ⟨fn, List.length_pos_iff.1 (by assumption), rfl⟩
  · rename_i hl
    have : fn = [] := by simpa using hl
    exact .inl ⟨rfl, h this⟩

theorem fieldCond_args {cat : Catalog} {f f' : FieldConditional} (h : checkFieldCond cat f = .ok f') (sx : GoExpr) :
    ∀ a ∈ fieldCondArgs sx f', Converted BareArg a (.sel sx f.fieldName) f.fieldType := by
  intro a ha
  unfold fieldCondArgs at ha
  split at ha
  · cases ha
  · rw [List.mem_singleton] at ha
    subst ha
    rw [(checkFieldCond_keeps h).1]
    exact addConv_converted fun hv g hs hp => C102_cond h hs hp hv

theorem bound_args {c : Checker} {col : Column} {wb : BetweenCond} {p : Pred} {b : Bound} {r : RangeBound}
    (h : checkBound c col wb p b = .ok r) (sx : GoExpr) :
    ∀ a ∈ boundArgs sx r, ∃ s ∈ boundFields sx b, Converted BareArg a s.1 s.2 := by
  intro a ha
  cases b with
  | column cid =>
    simp only [checkBound, Res.map_eq_ok] at h
    obtain ⟨x, _, rfl⟩ := h
    cases ha
  | field n t =>
    simp only [checkBound, Res.map_eq_ok] at h
    obtain ⟨x, hx, rfl⟩ := h
    exact ⟨_, List.mem_singleton.2 rfl, fieldCond_args (mapErr_eq_ok hx) sx a ha⟩

mutual
theorem item_args (c : Checker) : ∀ (i : WItem) (r : Cond) (sx : GoExpr), checkWhereItem c i = .ok r →
    ∀ a ∈ condArgs sx r, ∃ s ∈ itemFields sx i, Converted BareArg a s.1 s.2
  | .bool _, r, sx, h, a, ha => by cases h; cases ha
  | .nested n items, r, sx, h, a, ha => by
    simp only [checkWhereItem, Res.map_eq_ok] at h
    obtain ⟨cs, hcs, rfl⟩ := h
    rw [condArgs] at ha
    rw [itemFields]
    exact items_args c items cs (.sel sx n) hcs a ha
  | .column cc, r, sx, h, a, ha => by
    simp only [checkWhereItem, Res.map_eq_ok] at h
    obtain ⟨x, _, rfl⟩ := h
    rw [condArgs] at ha
    cases ha
  | .field f, r, sx, h, a, ha => by
    simp only [checkWhereItem, Res.map_eq_ok] at h
    obtain ⟨x, hx, rfl⟩ := h
    simp only [checkWhereField, Res.bind_eq_ok] at hx
    obtain ⟨col, _, hx⟩ := hx
    rw [condArgs] at ha
    rw [itemFields]
    exact ⟨_, List.mem_singleton.2 rfl, fieldCond_args hx sx a ha⟩
  | .between b, r, sx, h, a, ha => by
    simp only [checkWhereItem, Res.map_eq_ok] at h
    obtain ⟨x, hx, rfl⟩ := h
    simp only [checkBetween, Res.bind_eq_ok, Res.map_eq_ok] at hx
    obtain ⟨col, _, l, hl, u, hu, rfl⟩ := hx
    rw [condArgs, List.mem_append] at ha
    rw [itemFields]
    rcases ha with ha | ha
    · obtain ⟨s, hs, hc⟩ := bound_args hl _ a ha
      exact ⟨s, List.mem_append_left _ hs, hc⟩
    · obtain ⟨s, hs, hc⟩ := bound_args hu _ a ha
      exact ⟨s, List.mem_append_right _ hs, hc⟩
theorem items_args (c : Checker) : ∀ (is : List WItem) (r : List Cond) (sx : GoExpr), checkWhereItems c is = .ok r →
    ∀ a ∈ condsArgs sx r, ∃ s ∈ itemsFields sx is, Converted BareArg a s.1 s.2
  | [], r, sx, h, a, ha => by cases h; cases ha
  | i :: is, r, sx, h, a, ha => by
    simp only [checkWhereItems, Res.map_eq_ok, Res.bind_eq_ok] at h
    obtain ⟨x, hx, xs, hxs, rfl⟩ := h
    rw [condsArgs, List.mem_append] at ha
    rw [itemsFields]
    rcases ha with ha | ha
    · obtain ⟨s, hs, hc⟩ := item_args c i x sx hx a ha
      exact ⟨s, List.mem_append_left _ hs, hc⟩
    · obtain ⟨s, hs, hc⟩ := items_args c is xs sx hxs a ha
      exact ⟨s, List.mem_append_right _ hs, hc⟩
end

/-- **C102** Every argument that the generated code passes for a field that is written, or compared in the where
struct, is a call of a converter on the field, or the field itself and then of a type that database/sql passes to
the driver. -/
theorem C102_args {cat : Catalog} {q : Query} {t : TargetInfo} (h : checkQuery cat q = .ok t) :
    ∀ a ∈ writeArgs q t ++ whereArgs q t, ∃ s ∈ argSources q, Converted BareArg a s.1 s.2 := by
  intro a ha
  unfold argSources
  rw [List.mem_append] at ha
  rcases ha with ha | ha
  · simp only [writeArgs, List.mem_map, List.mem_filter] at ha
    obtain ⟨w, ⟨hw, _⟩, rfl⟩ := ha
    have hf := (C49_writes h).1 w hw
    refine ⟨(fieldSel (inputRoot q) w.field, w.field.type), List.mem_append_left _ ?_, ?_⟩
    · exact List.mem_map.2 ⟨w.field, List.mem_of_getElem? hf.1, rfl⟩
    · refine addConv_converted fun hv g hs hp => ?_
      have hc := writes_conv h w (.inl hw)
      rw [hv] at hc
      exact C102_field_write hs hp hc
  · unfold whereArgs at ha
    obtain ⟨c, hc, r1, r2, rw', _, _, hrel, _, _, _, hwh⟩ := checkQuery_ok h
    cases hq : q.wher with
    | none => rw [hq] at ha; cases ha
    | some w =>
      rw [hq] at ha hwh
      obtain ⟨s, hs, hcv⟩ := items_args c w.items t.wher _ hwh a ha
      exact ⟨s, List.mem_append_right _ hs, hcv⟩

/-- **C102** The keys of an update are passed as they are: database/sql deals with those for which the checker
found that no converter is needed. -/
theorem C102_pkeys {cat : Catalog} {q : Query} {t : TargetInfo} (h : checkQuery cat q = .ok t) :
    ∀ a ∈ pkeyArgs q t, ∃ w ∈ t.pkeys, a = fieldSel (inputRoot q) w.field ∧ (w.valuer = [] → BareArg w.field.type) := by
  intro a ha
  unfold pkeyArgs at ha
  split at ha
  · obtain ⟨w, hw, rfl⟩ := List.mem_map.1 ha
    have hp := (List.mem_filter.1 hw).1
    refine ⟨w, hp, rfl, fun hv g hs hg => ?_⟩
    have hc := writes_conv h w (.inr hp)
    rw [hv] at hc
    exact C102_field_write hs hg hc
  · cases ha

/-- **C102** Every destination of `Scan` is a call of a converter on the address of the field that is read, or that
address itself, and then the field is of a type that database/sql scans into. -/
theorem C102_scan {cat : Catalog} {q : Query} {t : TargetInfo} (h : checkQuery cat q = .ok t) :
    ∀ r ∈ t.reads, (r.field ∈ q.rel.type.fields ∨ ∃ n u, q.result = some (n, u) ∧ r.field ∈ u.fields) ∧
      Converted BareScan (scanArg q r) (.addr (fieldSel (outputVar q) r.field)) r.field.type := by
  intro r hr
  refine ⟨(C49_reads h r hr).1, addConv_converted fun hv g hs hp => ?_⟩
  have hc := reads_conv h r hr
  rw [hv] at hc
  exact C102_field_read hs hp hc

/-! ### Examples and exceptions -/

def uuidTy : PgType := { oid := Oid.uuid, nameFmt := b!"uuid", category := 'U' }
def uuidArrTy : PgType := { oid := Oid.uuidArr, nameFmt := b!"uuid[]", category := 'A', elem := Oid.uuid }
def stampTy : PgType := { oid := Oid.timestamptz, nameFmt := b!"timestamp with time zone", category := 'D' }

/-- A database with the relation `devices (id uuid primary key, name text, seen timestamptz)`. -/
def devicesCat : Catalog :=
  { types := [uuidTy, uuidArrTy, textTy, stampTy], ops := [⟨b!"=", Oid.uuid, Oid.uuid⟩]
    rels := [(b!"devices",
      { columns := [{ num := 1, name := b!"id", typeOid := Oid.uuid, isPrimary := true },
                    { num := 2, name := b!"name", typeOid := Oid.text },
                    { num := 3, name := b!"seen", typeOid := Oid.timestamptz }] })] }

/-- `[16]byte`. -/
def idGo : Ty := .array 16 (.basic .uint8 b!"byte")
/-- A struct type called `Time` in the package at the path, which is called `time`. -/
def timeGo (path : Bytes) : Ty :=
  .named { name := b!"Time", pkg := some { path := path, name := b!"time" } } (.struct .nil)

/-- How the analyzer sees a type. -/
def seen (g : Ty) : TypeInfo :=
  match typeInfo b!"p" none g with
  | .ok (t, _) => t
  | _ => .leaf { kind := .invalid }

/-- A query on `devices`; `idMode` is the mode of the field for the key. -/
def devicesQuery (kind : QKind) (idMode : FieldMode) (path : Bytes) (wher : Option WhereStruct) : Query :=
  { typeName := b!"Q", kind := kind, wher := wher
    rel := { fieldName := b!"Device", id := { name := b!"devices", alias := b!"d" }
             type := { fields := [
               { name := b!"Id", type := seen idGo, colIdent := { name := b!"id" }, mode := idMode },
               { name := b!"Name", type := seen (.basic .string b!"string"), colIdent := { name := b!"name" }
                 mode := modeDefault },
               { name := b!"Seen", type := seen (timeGo path), colIdent := { name := b!"seen" }
                 mode := modeDefault }] } } }

/-- The arguments and the slices of the generated code, and the destinations of `Scan`. -/
def passed (q : Query) : Option (List GoExpr × List GoExpr × List GoExpr) :=
  match checkQuery devicesCat q with
  | .ok t => (generate q t).map fun c => (c.args, c.g.slices, outputArgs q t)
  | _ => none

def dev (n : Bytes) : GoExpr := .sel (.sel (.ident b!"q") b!"Device") n

/-- **C102** A key of type `[16]byte` is converted for an insert and for a select; the other fields need no
converter. -/
theorem C102_example :
    passed (devicesQuery .insert modeDefault b!"time" none) =
      some ([.conv b!"UUIDFromByteArray16" (dev b!"Id"), dev b!"Name", dev b!"Seen"], [], []) ∧
    passed (devicesQuery .select modeDefault b!"time" none) =
      some ([], [], [.conv b!"UUIDToByteArray16" (.addr (dev b!"Id")), .addr (dev b!"Name"), .addr (dev b!"Seen")]) :=
  by decide +kernel

/-- **C102** An array is not of a type that database/sql passes to the driver, `time.Time` is. -/
theorem C102_kinds : ¬ Taken idGo ∧ Taken (timeGo b!"time") ∧ Taken (.ptr (.basic .string b!"string")) ∧
    ¬ Taken (timeGo b!"acme.org/time") := by
  refine ⟨fun h => (by cases h), .time _ _ _ rfl rfl rfl, .ptr _ (.basic _ _ rfl), fun h => ?_⟩
  cases h with
  | time _ _ p hp h _ => cases hp; exact absurd h (by decide)
  | own _ _ h => cases h
  | named _ _ h => cases h

/-- **C102** does not hold for the key of an update that is not itself written: the field is passed without the
converter that the checker found for it. The update of a record whose key is a `[16]byte` fails, as soon as the
field is marked read-only. -/
theorem C102_not_pkey :
    passed (devicesQuery .update (modeDefault.clear modeWrite) b!"time" none) =
      some ([dev b!"Name", dev b!"Seen", dev b!"Id"], [], []) ∧
    passed (devicesQuery .update modeDefault b!"time" none) =
      some ([.conv b!"UUIDFromByteArray16" (dev b!"Id"), dev b!"Name", dev b!"Seen"], [], []) ∧
    (match checkQuery devicesCat (devicesQuery .update (modeDefault.clear modeWrite) b!"time" none) with
     | .ok t => t.pkeys.map (·.valuer)
     | _ => []) = [b!"UUIDFromByteArray16"] := by decide +kernel

/-- The where struct `struct { Ids [][16]byte `sql:"d.id isin"` }`. -/
def idsWhere : WhereStruct :=
  { fieldName := b!"Where"
    items := [.field { name := b!"Ids", type := seen (.slice idGo), colIdent := { qualifier := b!"d", name := b!"id" }
                       pred := some .isIn }] }

/-- **C102** does not hold for the elements of a list: the converter that the checker found is one for the whole
list, and the elements are passed one by one as they are. -/
theorem C102_not_list :
    (passed (devicesQuery .select modeDefault b!"time" (some idsWhere))).map (fun x => (x.1, x.2.1)) =
      some ([], [.sel (.sel (.ident b!"q") b!"Where") b!"Ids"]) ∧
    (match checkQuery devicesCat (devicesQuery .select modeDefault b!"time" (some idsWhere)) with
     | .ok t => (t.wher.map fun | .field f => f.valuer | _ => [])
     | _ => []) = [b!"UUIDArrayFromByteArray16Slice"] := by decide +kernel

/-- **C102** does not hold for a type `Time` of another package that is called `time`: the table is searched by the
name of the package, not by its path. -/
theorem C102_not_time :
    passed (devicesQuery .insert modeDefault b!"acme.org/time" none) =
      passed (devicesQuery .insert modeDefault b!"time" none) ∧
    passed (devicesQuery .select modeDefault b!"acme.org/time" none) =
      passed (devicesQuery .select modeDefault b!"time" none) := by decide +kernel

end Verif.Generator
