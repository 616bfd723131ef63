import Verif.Generator.PropsGoQuery3

/- C110: all arguments of a generated method, those from the records included. -/
namespace Verif.Generator.Scoped
open Verif.Analysis Verif.Postgres

/-- The type of `r.A.B`, where `s` is the type of `r`. -/
inductive Reach (r : GoExpr) (s : Ty) : GoExpr → Ty → Prop
  | here : Reach r s r s
  | sel {x : GoExpr} {u : Ty} {fs : Fields} {h : FieldHdr} {t : Ty} : Reach r s x u → structOf u = some fs →
      (h, t) ∈ fs.toList → h.name ≠ b!"_" → Reach r s (.sel x h.name) t

theorem HasTy.reach {F : List Analysis.Field} {r x : GoExpr} {s T : Ty} (h : HasTy F r s) (hx : Reach r s x T) :
    HasTy F x T := by
  induction hx with
  | here => exact h
  | sel _ h1 h2 h3 ih => exact .sel ih h1 h2 h3

theorem Leads.reach {fs : Fields} {l : List SelNode} {n : Bytes} {T : Ty} (h : Leads fs l n T) :
    ∀ {r x : GoExpr} {s u : Ty}, Reach r s x u → structOf u = some fs →
      Reach r s (.sel (l.foldl (fun x n => .sel x n.name) x) n) T := by
  induction h with
  | field hm hne => intro r x s u hx hu; exact .sel hx hu hm hne
  | step hm hne hn hs _ _ ih =>
    intro r x s u hx hu
    rw [List.foldl_cons, hn]
    exact ih (.sel hx hu hm hne) hs

theorem bare_under {t : Ty} (h : isNamed (under t) = false) : bare t = under t := by
  cases t with
  | named i u => cases u <;> simp_all [under, bare, isNamed]
  | _ => rfl

theorem structOf_selects {x : Ty} {fs : Fields} (h : Selects x fs) : structOf x = some fs := by
  rcases h with h | ⟨e, h, h'⟩
  · rw [structOf, bare_under (by rw [h]; rfl), h]
  · have he : bare e = .struct fs := by rw [bare_under (by rw [h']; rfl), h']
    rw [structOf, bare_under (by rw [h]; rfl), h]
    simp [he]

theorem pkeys_fields {cat : Catalog} {q : Query} {t : TargetInfo} (h : checkQuery cat q = .ok t) :
    ∀ w ∈ t.pkeys, w.field ∈ q.rel.type.fields := by
  obtain ⟨c, hc, r1, r2, rw', _, _, hrel, _, _, hw, _⟩ := checkQuery_ok h
  by_cases hq : Writing q
  · obtain ⟨l, hl, hwr, he, _⟩ := checkRel_writing hq hrel
    clear hwr
    rw [hw, he]
    intro w hm
    rw [List.mem_flatten] at hm
    obtain ⟨ws, hws, hm⟩ := hm
    rw [List.mem_map] at hws
    obtain ⟨y, hy, rfl⟩ := hws
    obtain ⟨x, hx, hxy⟩ := hl.mem_right y hy
    rcases checkRelWrite_ok hxy with ⟨_, _, rfl⟩ | ⟨w', hw', rfl⟩
    · cases hm
    · simp only at hm
      split at hm
      · rw [List.mem_singleton] at hm
        subst hm
        rw [(checkWrite_ok hw').2.1]
        exact List.mem_of_getElem? (List.mem_zipIdx_iff_getElem?.1 hx)
      · cases hm
  · rw [hw, checkRel_not_writing hq hrel]
    simp

/-- **C110** The arguments that come from the records are fields of a record: each selector names a non-blank field of
the struct before it.  They start at `v` in `for i, v := range q.F` for a slice, otherwise at `q.F`, where F is a field
of the query struct, if the records are not in an array. -/
theorem C110_values {K : Ty → Prop} (hK : Distinct K) {env : Env} {cache : Cache} {n : Bytes} {fs : List Analysis.Field}
    {s : St} (hF : ∀ f ∈ fs, K f.2) (hc : CacheFit K cache) (e : analyzeQuery env cache n fs = .ok s) {cat : Catalog}
    {t : TargetInfo} (hq : checkQuery cat s.q = .ok t) (hr : ¬ Recordless s.q.kind s.q.rel)
    (ha : s.q.rel.type.isArray = false) (hi : s.q.rel.type.isIter = false) :
    ∃ f ∈ fs, f.1.name = s.q.rel.fieldName ∧ ∃ r u,
      (s.q.rel.type.isSlice = true → r = .ident b!"v" ∧ under f.2 = .slice u) ∧
      (s.q.rel.type.isSlice = false → r = .sel (.ident b!"q") f.1.name ∧ u = f.2) ∧
      ∀ x ∈ writeArgs s.q t ++ pkeyArgs s.q t, ∃ y T, Reach r u y T ∧ (x = y ∨ ∃ v, x = .conv v y) := by
  obtain ⟨h1, _, _⟩ := C108_analysed hK hF hc e
  obtain ⟨f, hf, hn, b, g, h⟩ := h1.resolve_left hr
  have hsel : Selects (inTy s.q.rel.type f.2 b) g := by
    unfold inTy
    split
    · exact selects_record h.struct
    · next hs =>
      simp only [Bool.not_eq_true] at hs
      cases hp : s.q.rel.type.isPointer with
      | true => exact .inr ⟨b, h.pointer hi hs ha hp, h.struct⟩
      | false => rw [h.value hi hs ha hp]; exact .inl h.struct
  have hst := structOf_selects hsel
  have key : ∀ fi ∈ s.q.rel.type.fields,
      ∃ T, Reach (inputRoot s.q) (inTy s.q.rel.type f.2 b) (fieldSel (inputRoot s.q) fi) T := by
    intro fi hfi
    obtain ⟨T, hT⟩ := h.fields fi hfi
    exact ⟨T, hT.reach .here hst⟩
  refine ⟨f, hf, hn, inputRoot s.q, inTy s.q.rel.type f.2 b, ?_, ?_, ?_⟩
  · intro hs
    refine ⟨by rw [inputRoot, if_pos hs], ?_⟩
    rw [inTy, if_pos hs]
    exact h.slice hs
  · intro hs
    exact ⟨by rw [inputRoot, if_neg (by simp [hs]), hn]; rfl, by rw [inTy, if_neg (by simp [hs])]⟩
  · intro x hx
    rcases List.mem_append.1 hx with hx | hx
    · simp only [writeArgs, List.mem_map, List.mem_filter] at hx
      obtain ⟨w, ⟨hw, _⟩, rfl⟩ := hx
      obtain ⟨T, hT⟩ := key _ (List.mem_of_getElem? ((C49_writes hq).1 w hw).1)
      refine ⟨_, T, hT, ?_⟩
      unfold writeArg addConv
      split
      · exact .inr ⟨_, rfl⟩
      · exact .inl rfl
    · unfold pkeyArgs at hx
      split at hx
      · simp only [inputPKeys, List.mem_map, List.mem_filter] at hx
        obtain ⟨w, ⟨hw, _⟩, rfl⟩ := hx
        obtain ⟨T, hT⟩ := key _ (pkeys_fields hq w hw)
        exact ⟨_, T, hT, .inl rfl⟩
      · cases hx

/-- **C110** So every argument of a method for one record is a field that can be selected from the query struct, or a
function of package pgsql of such a field. -/
theorem C110_args {K : Ty → Prop} (hK : Distinct K) {env : Env} {cache : Cache} {n : Bytes} {fs : List Analysis.Field}
    {s : St} (hF : ∀ f ∈ fs, K f.2) (hc : CacheFit K cache) (e : analyzeQuery env cache n fs = .ok s) {cat : Catalog}
    {t : TargetInfo} (hq : checkQuery cat s.q = .ok t) (hr : ¬ Recordless s.q.kind s.q.rel)
    (ha : s.q.rel.type.isArray = false) (hi : s.q.rel.type.isIter = false) (hs : s.q.rel.type.isSlice = false)
    (hb : s.q.rel.fieldName ≠ b!"_") (hn : ∀ w, s.q.wher = some w → namedItems w.items = true) :
    ∀ x ∈ inputArgs s.q t, Typed fs x := by
  obtain ⟨f, hf, hfn, r, u, _, h2, h3⟩ := C110_values hK hF hc e hq hr ha hi
  obtain ⟨rfl, rfl⟩ := h2 hs
  have root : HasTy fs (.sel (.ident b!"q") f.1.name) f.2 := .field hf (hfn ▸ hb)
  have key : ∀ x ∈ writeArgs s.q t ++ pkeyArgs s.q t, Typed fs x := by
    intro x hx
    obtain ⟨y, T, hy, h⟩ := h3 x hx
    exact ⟨y, T, root.reach hy, h⟩
  have lim : ∀ x ∈ limitArgs s.q.limit ++ limitArgs s.q.offset, Typed fs x := by
    intro x hx
    obtain ⟨T, hT, _⟩ := C110_limit e x hx
    exact ⟨x, T, hT, .inl rfl⟩
  intro x hx
  simp only [inputArgs, List.mem_append] at hx
  rcases hx with (((hx | hx) | hx) | hx) | hx
  · exact key x (List.mem_append_left _ hx)
  · exact C110_where e hq hn x hx
  · exact key x (List.mem_append_right _ hx)
  · exact lim x (List.mem_append_left _ hx)
  · exact lim x (List.mem_append_right _ hx)

/-- **C110** An update of one record has such arguments: its fields and those of the where struct. -/
theorem C110_example_args : ∃ q t c,
    pipeline env0 shopCat b!"UpdateUser"
      [relFld userTy, whereOf [sqlFld b!"Id" [b!"u.id"] Analysis.intTy]] = some (q, t, some c) ∧
    inputArgs q t = [path [b!"Users", b!"Id"], path [b!"Users", b!"Name"], path [b!"Where", b!"Id"]] ∧
    q.rel.type.isSlice = false ∧ q.rel.type.isArray = false ∧ q.rel.type.isIter = false ∧ q.rel.fieldName ≠ b!"_" := by
  obtain ⟨q, t, c, h1, h2⟩ := query_of (env := env0) (cat := shopCat) (n := b!"UpdateUser")
    (fs := [relFld userTy, whereOf [sqlFld b!"Id" [b!"u.id"] Analysis.intTy]])
    (P := fun q t _ => decide (
      inputArgs q t = [path [b!"Users", b!"Id"], path [b!"Users", b!"Name"], path [b!"Where", b!"Id"]] ∧
      q.rel.type.isSlice = false ∧ q.rel.type.isArray = false ∧
      q.rel.type.isIter = false ∧ q.rel.fieldName ≠ b!"_")) (by decide +kernel)
  exact ⟨q, t, c, h1, of_decide_eq_true h2⟩

end Verif.Generator.Scoped
