import Verif.Pgsql.Geo
import Verif.Pgsql.PropsInts
/-
Property C24: geometric types.
-/
namespace Verif.Pgsql

open Verif Verif.PgServer

/-- What is assumed about numbers as text: they are read back, not empty, and have none of the
characters that have a meaning in geometric literals. -/
structure NumCodec.OK {F : Type} (nc : NumCodec F) : Prop where
  back : ∀ x, nc.parse (nc.fmt x) = .ok x
  ne : ∀ x, nc.fmt x ≠ []
  free : ∀ x, ∀ c ∈ nc.fmt x, c ∉ b!",()[]{}\";\\"

/-- Integers in decimal satisfy the assumptions (so they can be satisfied). -/
def intCodec : NumCodec Int where
  fmt := fmtInt 10
  parse s := match intIn s with
    | some v => .ok v
    | none => .err .syntax

theorem intCodec_ok : intCodec.OK where
  back x := by simp [intCodec, intIn_fmtInt]
  ne x := fmtInt_ne_nil x
  free x c hc hm := by
    have : ∀ c ∈ b!",()[]{}\";\\", isDig 10 c = false ∧ c ≠ '-' := by decide
    exact fmtInt_free x c (this c hm).1 (this c hm).2 hc

section
variable {F : Type} {nc : NumCodec F} (ok : nc.OK)
include ok

theorem fmt_free (x : F) (c : Char) (h : c ∈ b!",()[]{}\";\\") : c ∉ nc.fmt x :=
  fun hm => ok.free x c hm h

theorem scanPt_fmt (p : F × F) : scanPt nc (nc.fmt p.1, nc.fmt p.2) = .ok p := by
  simp [scanPt, ok.back]

theorem scanLseg_fmt (l : (F × F) × F × F) :
    scanLseg nc ((nc.fmt l.1.1, nc.fmt l.1.2), (nc.fmt l.2.1, nc.fmt l.2.2)) = .ok l := by
  simp [scanLseg, scanPt, ok.back]

theorem scanLine_fmt (l : F × F × F) :
    scanLine nc (nc.fmt l.1, nc.fmt l.2.1, nc.fmt l.2.2) = .ok l := by
  simp [scanLine, ok.back]

end

/-- The texts of a point. -/
def ptTxt {F : Type} (nc : NumCodec F) (p : F × F) : PtTxt := (nc.fmt p.1, nc.fmt p.2)

/-! ### Points in a list -/

theorem ptLoop_word (cl : Char → Bool) (w t cur : Bytes) (p : PtTxt) (o k : Nat) (h1 : ',' ∉ w)
    (h2 : ∀ c ∈ w, cl c = false) :
    ptLoop cl p cur o k (w ++ t) = ptLoop cl p (cur ++ w) (o + w.length) k t := by
  induction w generalizing cur o with
  | nil => simp
  | cons c w ih =>
    have hc : c ≠ ',' := fun e => h1 (by simp [e])
    rw [List.cons_append, ptLoop, if_neg hc, if_neg (by simp [h2 c (by simp)]),
      ih _ _ (fun hm => h1 (by simp [hm])) (fun c hc => h2 c (by simp [hc]))]
    simp only [List.append_assoc, List.singleton_append, List.length_cons]
    congr 1; omega

theorem ptLoop_point (cl : Char → Bool) (x y t : Bytes) (e : Char) (hx : ',' ∉ x) (hy : ',' ∉ y)
    (hx' : ∀ c ∈ x, cl c = false) (hy' : ∀ c ∈ y, cl c = false) (he : cl e = true) (he' : e ≠ ',') :
    ptLoop cl ([], []) [] 0 0 (x ++ ',' :: (y ++ e :: t)) = ((x, y), x.length + 1 + y.length + 1) := by
  rw [ptLoop_word cl x _ _ _ _ _ hx hx', ptLoop, if_pos rfl, ptLoop_word cl y _ _ _ _ _ hy hy',
    ptLoop, if_neg he', if_pos he]
  simp

theorem ptListLoop_skip (k : Nat) (s : Bytes) : ptListLoop k s = ptListLoop 0 (s.drop k) := by
  induction s generalizing k with
  | nil => cases k <;> simp [ptListLoop]
  | cons c s ih =>
    cases k with
    | zero => rfl
    | succ k => rw [ptListLoop, ih k]; rfl

theorem drop_point (x y t : Bytes) (e : Char) :
    (x ++ ',' :: (y ++ e :: t)).drop (x.length + 1 + y.length + 1) = t := by
  have : x ++ ',' :: (y ++ e :: t) = (x ++ ',' :: (y ++ [e])) ++ t := by simp
  rw [this, List.drop_append_of_le_length (by simp; omega), List.drop_eq_nil_of_le (by simp; omega)]
  simp

section
variable {F : Type} {nc : NumCodec F} (ok : nc.OK)
include ok

theorem fmt_not_rparen (x : F) : ∀ c ∈ nc.fmt x, isRParen c = false := by
  intro c hc
  rw [isRParen, decide_eq_false_iff_not]
  rintro rfl
  exact fmt_free ok x _ (by simp) hc

theorem ptListLoop_pt (p : F × F) (t : Bytes) :
    ptListLoop 0 (ptText nc p ++ t) = ptTxt nc p :: ptListLoop 0 t := by
  have e : ptText nc p ++ t = '(' :: (nc.fmt p.1 ++ ',' :: (nc.fmt p.2 ++ ')' :: t)) := by
    simp [ptText]
  have h := ptLoop_point isRParen (nc.fmt p.1) (nc.fmt p.2) t ')' (fmt_free ok _ _ (by simp))
    (fmt_free ok _ _ (by simp)) (fmt_not_rparen ok _) (fmt_not_rparen ok _) (by decide) (by decide)
  rw [e, ptListLoop, if_pos rfl, h]
  simp only
  rw [ptListLoop_skip, drop_point]
  rfl

theorem ptListLoop_join (ps : List (F × F)) :
    ptListLoop 0 (joinWith b!"," (ps.map (ptText nc))) = ps.map (ptTxt nc) :=
  join_loop _ _ _ ps rfl (fun t => by rw [ptListLoop, if_neg (by decide)])
    (fun p _ t _ => ptListLoop_pt ok p t)

end

theorem ptsText_cons {F : Type} (nc : NumCodec F) (o c : Char) (p : F × F) (ps : List (F × F)) :
    ptsText nc o c (p :: ps) = o :: (joinWith b!"," ((p :: ps).map (ptText nc)) ++ [c]) := by
  rw [ptsText, flatMap_sep, ← List.cons_append, List.dropLast_concat]
  rfl

section
variable {F : Type} {nc : NumCodec F} (ok : nc.OK)
include ok

theorem mapRes_pts (ps : List (F × F)) : mapRes (scanPt nc) (ps.map (ptTxt nc)) = .ok ps := by
  rw [mapRes_map (scanPt nc) (ptTxt nc) id ps fun p _ => scanPt_fmt ok p]
  simp

/-! ### C24: scalars -/

/-- C24: point. -/
theorem C24_point (p d : F × F) : pointScan nc d (some (pointValue nc p)) = .ok p := by
  have e : pointValue nc p = '(' :: ((nc.fmt p.1 ++ ',' :: nc.fmt p.2) ++ [')']) := by
    simp [pointValue, ptText]
  rw [e, pointScan, scanKeep, parseRange, dropEnds_wrap]
  simp [rangeLoop_append _ _ _ (fmt_free ok p.1 ',' (by simp)), ofParse, pure, scanPt, ok.back]

/-- C24: lseg. -/
theorem C24_lseg (l d : (F × F) × F × F) : lsegScan nc d (some (lsegValue nc l)) = .ok l := by
  have e : lsegValue nc l = '[' :: (joinWith b!"," ([l.1, l.2].map (ptText nc)) ++ [']']) := by
    simp [lsegValue, joinWith]
  rw [e, lsegScan, scanKeep, parseLseg, dropEnds_wrap]
  simp only [Option.bind_eq_bind, Option.bind_some, ptListLoop_join ok [l.1, l.2]]
  exact scanLseg_fmt ok l

/-- C24: line. -/
theorem C24_line (l d : F × F × F) : lineScan nc d (some (lineValue nc l)) = .ok l := by
  have hx := fmt_free ok l.1 ',' (by simp)
  have hy := fmt_free ok l.2.1 ',' (by simp)
  have e : lineValue nc l =
      '{' :: ((nc.fmt l.1 ++ ',' :: (nc.fmt l.2.1 ++ ',' :: nc.fmt l.2.2)) ++ ['}']) := by
    simp [lineValue]
  have htw : ∀ w t : Bytes, ',' ∉ w → (w ++ ',' :: t).takeWhile (· ≠ ',') = w :=
    fun w t hw => takeWhile_ne_append hw (.inr ⟨_, rfl⟩)
  have hdw : ∀ w t : Bytes, ',' ∉ w → (w ++ ',' :: t).dropWhile (· ≠ ',') = ',' :: t := by
    intro w t hw
    have := List.takeWhile_append_dropWhile (p := (· ≠ ',')) (l := w ++ ',' :: t)
    rw [htw w t hw] at this
    exact List.append_cancel_left this
  rw [e, lineScan, scanKeep, parseLine, dropEnds_wrap]
  simp only [Option.bind_eq_bind, Option.bind_some, lineLoop, hdw _ _ hx, htw _ _ hx, hdw _ _ hy,
    htw _ _ hy, pure, ofParse, Res.bind_ok, scanLine_fmt ok l]

/-- C24: path, for slices that are nil or not empty. -/
theorem C24_path_partial (v d : Option (List (F × F))) (h : v ≠ some []) :
    pathScan nc d (pathValue nc v) = .ok v := by
  match v, h with
  | none, _ => rfl
  | some (p :: ps), _ =>
    rw [pathValue, if_neg (by simp), ptsText_cons, pathScan, scanReset, parsePath, dropEnds_wrap]
    simp only [List.head?_cons, Option.bind_eq_bind, Option.bind_some, pure, ofParse, Res.bind_ok,
      parsePointList, ptListLoop_join ok, mapRes_pts ok, Res.map_ok]

/-- C24: polygon, for slices that are nil or not empty. -/
theorem C24_polygon_partial (v d : Option (List (F × F))) (h : v ≠ some []) :
    polygonScan nc d (polygonValue nc v) = .ok v := by
  match v, h with
  | none, _ => rfl
  | some (p :: ps), _ =>
    rw [polygonValue, if_neg (by simp), ptsText_cons, polygonScan, scanReset, parsePolygon,
      dropEnds_wrap]
    simp only [Option.bind_eq_bind, Option.bind_some, pure, ofParse, Res.bind_ok,
      parsePointList, ptListLoop_join ok, mapRes_pts ok, Res.map_ok]

omit ok in
/-- C24 fails for an empty path or polygon: it becomes NULL, and so nil. -/
theorem C24_not_empty (d : Option (List (F × F))) :
    pathScan nc d (pathValue nc (some [])) = .ok none ∧
    polygonScan nc d (polygonValue nc (some [])) = .ok none := ⟨rfl, rfl⟩

/-- C24 fails for closed paths: the scanner gives the same points as for the open path, from which the
valuer makes the open path. -/
theorem C24_not_closed (ps : List (F × F)) (h : ps ≠ []) (d : Option (List (F × F))) :
    pathScan nc d (some (ptsText nc '(' ')' ps)) = .ok (some ps) ∧
    pathValue nc (some ps) = some (ptsText nc '[' ']' ps) := by
  match ps, h with
  | p :: ps, _ =>
    refine ⟨?_, by simp [pathValue]⟩
    rw [ptsText_cons, pathScan, scanReset, parsePath, dropEnds_wrap]
    simp only [List.head?_cons, Option.bind_eq_bind, Option.bind_some, pure, ofParse, Res.bind_ok,
      parsePointList, ptListLoop_join ok, mapRes_pts ok, Res.map_ok]

end

/-! ### Boxes -/

theorem boxLoop_char (f : Bool) (c : Char) (cur t : Bytes) (h1 : c ≠ ',') (h2 : c ≠ ')') :
    boxLoop f cur (c :: t) = boxLoop f (cur ++ [c]) t := by
  rcases t with _ | ⟨a, _ | ⟨b, t⟩⟩ <;> simp [boxLoop, h1, h2]

theorem boxLoop_word (f : Bool) (w cur t : Bytes) (h1 : ',' ∉ w) (h2 : ')' ∉ w) :
    boxLoop f cur (w ++ t) = boxLoop f (cur ++ w) t := by
  induction w generalizing cur with
  | nil => simp
  | cons c w ih =>
    rw [List.cons_append, boxLoop_char f c cur _ (fun e => h1 (by simp [e]))
      (fun e => h2 (by simp [e])), ih _ (fun hm => h1 (by simp [hm])) (fun hm => h2 (by simp [hm]))]
    simp

theorem boxLoop_comma (f : Bool) (cur t : Bytes) :
    boxLoop f cur (',' :: t) = consO cur (boxLoop false [] t) := by
  rcases t with _ | ⟨a, _ | ⟨b, t⟩⟩ <;> simp [boxLoop]

theorem boxLoop_close (f : Bool) (cur t : Bytes) (a b : Char) :
    boxLoop f cur (')' :: a :: b :: t) = consO cur (boxLoop false [] t) := by
  simp [boxLoop]

/-- A box without the outermost parentheses. -/
def boxBody {F : Type} (nc : NumCodec F) (b : (F × F) × F × F) : Bytes :=
  nc.fmt b.1.1 ++ [','] ++ nc.fmt b.1.2 ++ b!"),(" ++ nc.fmt b.2.1 ++ [','] ++ nc.fmt b.2.2

/-- The four texts of a box. -/
def boxTxt {F : Type} (nc : NumCodec F) (b : (F × F) × F × F) : List Bytes :=
  [nc.fmt b.1.1, nc.fmt b.1.2, nc.fmt b.2.1, nc.fmt b.2.2]

section
variable {F : Type} {nc : NumCodec F} (ok : nc.OK)
include ok

theorem boxLoop_body (f : Bool) (b : (F × F) × F × F) (t : Bytes) :
    boxLoop f [] (boxBody nc b ++ t) =
      (boxLoop false (nc.fmt b.2.2) t).map
        ([nc.fmt b.1.1, nc.fmt b.1.2, nc.fmt b.2.1] ++ ·) := by
  have hc := fun x => fmt_free ok x ',' (by simp)
  have hp := fun x => fmt_free ok x ')' (by simp)
  have e : boxBody nc b ++ t = nc.fmt b.1.1 ++ (',' :: (nc.fmt b.1.2 ++ (')' :: ',' :: '(' ::
      (nc.fmt b.2.1 ++ (',' :: (nc.fmt b.2.2 ++ t)))))) := by simp [boxBody]
  rw [e, boxLoop_word _ _ _ _ (hc _) (hp _), boxLoop_comma, boxLoop_word _ _ _ _ (hc _) (hp _),
    boxLoop_close, boxLoop_word _ _ _ _ (hc _) (hp _), boxLoop_comma,
    boxLoop_word _ _ _ _ (hc _) (hp _)]
  simp only [List.nil_append]
  cases boxLoop false (nc.fmt b.2.2) t <;> simp [consO]

theorem boxLoop_boxes (f : Bool) (b : (F × F) × F × F) (bs : List ((F × F) × F × F)) :
    boxLoop f [] (joinWith b!");(" ((b :: bs).map (boxBody nc))) =
      some ((b :: bs).flatMap (boxTxt nc)) := by
  induction bs generalizing b f with
  | nil =>
    have := boxLoop_body ok f b []
    simpa [joinWith, boxLoop, boxTxt] using this
  | cons c bs ih =>
    have := ih false c
    simp only [List.map_cons] at this ⊢
    rw [joinWith, List.append_assoc, boxLoop_body ok]
    simp only [List.cons_append, List.nil_append, boxLoop_close, this]
    simp [consO, boxTxt]

theorem scanBoxes_txt (bs : List ((F × F) × F × F)) :
    scanBoxes nc (bs.flatMap (boxTxt nc)) = .ok bs := by
  induction bs with
  | nil => rfl
  | cons b bs ih =>
    rw [List.flatMap_cons]
    simp only [boxTxt, List.cons_append, List.nil_append, scanBoxes]
    rw [scanLseg_fmt ok b, Res.bind_ok, ih]
    rfl

/-- C24: a box in the form the server sends, `(x1,y1),(x2,y2)`, is scanned to the coordinates. -/
theorem C24_box_server (b d : (F × F) × F × F) :
    boxScan nc d (some (ptText nc b.1 ++ [','] ++ ptText nc b.2)) = .ok b := by
  have e : ptText nc b.1 ++ [','] ++ ptText nc b.2 =
      '(' :: (joinWith b!");(" ([b].map (boxBody nc)) ++ [')']) := by
    simp [ptText, boxBody, joinWith]
  rw [e, boxScan, scanKeep, parseBox, dropEnds_wrap]
  simp only [Option.bind_eq_bind, Option.bind_some, boxLoop_boxes ok, ofParse, Res.bind_ok]
  simp only [List.flatMap_cons, List.flatMap_nil, boxTxt, List.append_nil, scanBox]
  exact scanLseg_fmt ok b

/-- C24 fails for the literal the box valuer produces, which has parentheses around it: the scanner
panics for every box. -/
theorem C24_not_box (b d : (F × F) × F × F) : boxScan nc d (some (boxValue nc b)) = .panic := by
  have hc := fun x => fmt_free ok x ',' (by simp)
  have hp := fun x => fmt_free ok x ')' (by simp)
  have e : boxValue nc b = '(' :: (('(' :: (nc.fmt b.1.1 ++ (',' :: (nc.fmt b.1.2 ++ (')' :: ',' ::
      '(' :: (nc.fmt b.2.1 ++ (',' :: (nc.fmt b.2.2 ++ [')'])))))))) ++ [')']) := by
    simp [boxValue, ptText]
  have h1 : ∀ cur, boxLoop false cur [')'] = none := by intro cur; simp [boxLoop]
  rw [e, boxScan, scanKeep, parseBox, dropEnds_wrap]
  simp only [Option.bind_eq_bind, Option.bind_some]
  rw [boxLoop_char _ _ _ _ (by decide) (by decide), boxLoop_word _ _ _ _ (hc _) (hp _),
    boxLoop_comma, boxLoop_word _ _ _ _ (hc _) (hp _), boxLoop_close,
    boxLoop_word _ _ _ _ (hc _) (hp _), boxLoop_comma, boxLoop_word _ _ _ _ (hc _) (hp _), h1]
  rfl

omit ok in
theorem boxArrValue_some (b : (F × F) × F × F) (bs : List ((F × F) × F × F)) :
    boxArrValue nc (some (b :: bs)) =
      some ('{' :: (joinWith b!";" ((b :: bs).map (boxElem nc)) ++ ['}'])) := by
  rw [boxArrValue, if_neg (by simp), flatMap_sep, ← List.cons_append, setLast_append]
  rfl

omit ok in
theorem boxArr_body (b : (F × F) × F × F) (bs : List ((F × F) × F × F)) :
    joinWith b!";" ((b :: bs).map (boxElem nc)) =
      '(' :: (joinWith b!");(" ((b :: bs).map (boxBody nc)) ++ [')']) := by
  induction bs generalizing b with
  | nil => simp [joinWith, boxElem, boxBody, ptText]
  | cons c bs ih =>
    have := ih c
    simp only [List.map_cons] at this ⊢
    rw [joinWith, this, joinWith]
    simp [boxElem, boxBody, ptText]

/-- C24: box[]. -/
theorem C24_box_arr (v d : Option (List ((F × F) × F × F))) :
    boxArrScan nc d (boxArrValue nc v) = .ok v := by
  match v with
  | none => rfl
  | some [] => rfl
  | some (b :: bs) =>
    have hl : ¬ ('{' :: ('(' :: (joinWith b!");(" ((b :: bs).map (boxBody nc)) ++ [')']) ++
        ['}'])).length = 2 := by simp
    rw [boxArrValue_some, boxArr_body, boxArrScan, scanReset, parseBoxArray, if_neg hl, dropEnds_wrap]
    simp only [Option.bind_eq_bind, Option.bind_some, dropEnds_wrap, boxLoop_boxes ok, ofParse,
      Res.bind_ok, scanBoxes_txt ok, Res.map_ok]

omit ok in
/-- C24: the box[] literal is what the server sends: `;` is the delimiter for boxes, whose texts need
no quotes then. -/
theorem C24_box_arr_text (bs : List ((F × F) × F × F)) :
    boxArrValue nc (some bs) = some ('{' ::
      (joinWith b!";" (bs.map fun b => ptText nc b.1 ++ [','] ++ ptText nc b.2) ++ ['}'])) := by
  cases bs with
  | nil => rfl
  | cons b bs => rw [boxArrValue_some]; rfl

end

/-! ### point[] -/

theorem ptArrInner_word (w t cur : Bytes) (p : PtTxt) (o k : Nat) (h1 : ',' ∉ w) (h2 : ')' ∉ w) :
    ptArrInner p cur o k (w ++ t) = ptArrInner p (cur ++ w) (o + w.length) k t := by
  induction w generalizing cur o with
  | nil => simp
  | cons c w ih =>
    have hc : c ≠ ',' := fun e => h1 (by simp [e])
    have hd : c ≠ ')' := fun e => h2 (by simp [e])
    rw [List.cons_append, ptArrInner, if_neg hc, if_neg hd,
      ih _ _ (fun hm => h1 (by simp [hm])) (fun hm => h2 (by simp [hm]))]
    simp only [List.append_assoc, List.singleton_append, List.length_cons]
    congr 1; omega

theorem ptArrLoop_skip (k : Nat) (s : Bytes) : ptArrLoop k s = ptArrLoop 0 (s.drop k) := by
  induction s generalizing k with
  | nil => cases k <;> simp [ptArrLoop]
  | cons c s ih =>
    cases k with
    | zero => rfl
    | succ k => rw [ptArrLoop, ih k]; rfl

theorem ptArrLoop_comma (t : Bytes) : ptArrLoop 0 (',' :: t) = ptArrLoop 0 t := by
  rw [ptArrLoop, if_neg (by decide), if_neg (by decide)]

theorem atComma_drop {β : Type} (L : Bytes → β) (h : ∀ t, L (',' :: t) = L t) (t : Bytes)
    (ht : AtComma t) : L (t.drop 1) = L t := by
  rcases ht with rfl | ⟨r, rfl⟩
  · rfl
  · rw [h]; rfl

section
variable {F : Type} {nc : NumCodec F} (ok : nc.OK)
include ok

theorem ptArrLoop_pt (p : F × F) (t : Bytes) (ht : AtComma t) :
    ptArrLoop 0 ((['"'] ++ ptText nc p ++ ['"']) ++ t) =
      (ptArrLoop 0 t).map ([ptTxt nc p] ++ ·) := by
  have e : (['"'] ++ ptText nc p ++ ['"']) ++ t =
      '"' :: '(' :: (nc.fmt p.1 ++ ',' :: (nc.fmt p.2 ++ ')' :: ('"' :: t))) := by
    simp [ptText]
  have h : ptArrStart ('(' :: (nc.fmt p.1 ++ ',' :: (nc.fmt p.2 ++ ')' :: ('"' :: t)))) =
      some (ptTxt nc p, (nc.fmt p.1).length + 1 + (nc.fmt p.2).length + 1 + 1) := by
    rw [ptArrStart, ptArrInner_word _ _ _ _ _ _ (fmt_free ok _ _ (by simp))
      (fmt_free ok _ _ (by simp)), ptArrInner, if_pos rfl, if_neg (by simp),
      ptArrInner_word _ _ _ _ _ _ (fmt_free ok _ _ (by simp)) (fmt_free ok _ _ (by simp)),
      ptArrInner, if_neg (by decide), if_pos rfl]
    simp [ptTxt]; omega
  rw [e, ptArrLoop, if_pos rfl, h]
  simp only
  rw [ptArrLoop_skip, consO_eq, ← atComma_drop _ ptArrLoop_comma t ht]
  congr 2
  have e2 : (nc.fmt p.1).length + 1 + (nc.fmt p.2).length + 1 + 1 + 2 =
      1 + ((nc.fmt p.1).length + 1 + (nc.fmt p.2).length + 1 + 2) := by omega
  rw [e2, ← List.drop_drop, ← List.drop_drop]
  simp only [List.drop_succ_cons, List.drop_zero, drop_point]

/-- C24: point[]; for nil the destination is left as it is (C27). -/
theorem C24_point_arr (ps : List (F × F)) (d : Option (List (F × F))) :
    pointArrScan nc d (pointArrValue nc (some ps)) = .ok (some ps) := by
  rw [pointArrValue, arrValue_some, pointArrScan, scanKeep, parsePointArray, dropEnds_wrap]
  have := join_loopO (ptArrLoop 0) (fun p => ['"'] ++ ptText nc p ++ ['"'])
    (fun p => [ptTxt nc p]) ps rfl ptArrLoop_comma (fun p _ t ht => ptArrLoop_pt ok p t ht)
  simp only [Option.bind_eq_bind, Option.bind_some, this, ofParse, Res.bind_ok]
  have e : ps.flatMap (fun p => [ptTxt nc p]) = ps.map (ptTxt nc) := by
    clear this
    induction ps <;> simp_all
  rw [e, mapRes_pts ok]
  rfl

end

/-! ### lseg[] -/

theorem lsegInner_char (l : PtTxt × PtTxt) (n : Bool) (c : Char) (cur t : Bytes) (o k : Nat)
    (h1 : c ≠ ',') (h2 : c ≠ ')') (h3 : c ≠ ']') :
    lsegInner l n cur o k (c :: t) = lsegInner l n (cur ++ [c]) (o + 1) k t := by
  rcases t with _ | ⟨x, _ | ⟨y, _ | ⟨z, t⟩⟩⟩ <;> simp [lsegInner, h1, h2, h3]

theorem lsegInner_word (w t cur : Bytes) (l : PtTxt × PtTxt) (n : Bool) (o k : Nat) (h1 : ',' ∉ w)
    (h2 : ')' ∉ w) (h3 : ']' ∉ w) :
    lsegInner l n cur o k (w ++ t) = lsegInner l n (cur ++ w) (o + w.length) k t := by
  induction w generalizing cur o with
  | nil => simp
  | cons c w ih =>
    rw [List.cons_append, lsegInner_char _ _ _ _ _ _ _ (fun e => h1 (by simp [e]))
      (fun e => h2 (by simp [e])) (fun e => h3 (by simp [e])),
      ih _ _ (fun hm => h1 (by simp [hm])) (fun hm => h2 (by simp [hm]))
        (fun hm => h3 (by simp [hm]))]
    simp only [List.append_assoc, List.singleton_append, List.length_cons]
    congr 1; omega

theorem lsegInner_comma (l : PtTxt × PtTxt) (n : Bool) (cur t : Bytes) (o k : Nat) :
    lsegInner l n cur o k (',' :: t) = lsegInner (setX l n cur) n [] (o + 1) (o + 1) t := by
  rcases t with _ | ⟨x, _ | ⟨y, _ | ⟨z, t⟩⟩⟩ <;> simp [lsegInner]

theorem lsegInner_close1 (l : PtTxt × PtTxt) (cur t : Bytes) (o k : Nat) (a b d : Char) :
    lsegInner l false cur o k (')' :: a :: b :: d :: t) =
      lsegInner (setY l false cur) true [d] (o + 4) (o + 3) t := by
  simp [lsegInner]

theorem lsegInner_close2 (l : PtTxt × PtTxt) (cur t : Bytes) (o k : Nat) :
    lsegInner l true cur o k (')' :: t) = lsegInner (setY l true cur) true [')'] (o + 1) o t := by
  rcases t with _ | ⟨x, _ | ⟨y, _ | ⟨z, t⟩⟩⟩ <;> simp [lsegInner]

theorem lsegInner_end (l : PtTxt × PtTxt) (n : Bool) (cur t : Bytes) (o k : Nat) :
    lsegInner l n cur o k (']' :: t) = (l, o) := by
  rcases t with _ | ⟨x, _ | ⟨y, _ | ⟨z, t⟩⟩⟩ <;> simp [lsegInner]

theorem lsegArrLoop_skip (k : Nat) (s : Bytes) : lsegArrLoop k s = lsegArrLoop 0 (s.drop k) := by
  induction s generalizing k with
  | nil => cases k <;> simp [lsegArrLoop]
  | cons c s ih =>
    cases k with
    | zero => rfl
    | succ k => rw [lsegArrLoop, ih k]; rfl

theorem lsegArrLoop_comma (t : Bytes) : lsegArrLoop 0 (',' :: t) = lsegArrLoop 0 t := by
  rw [lsegArrLoop, if_neg (by decide), if_neg (by decide)]

section
variable {F : Type} {nc : NumCodec F} (ok : nc.OK)
include ok

theorem lsegArrLoop_elem (l : (F × F) × F × F) (t : Bytes) (ht : AtComma t) :
    lsegArrLoop 0 ((['"'] ++ lsegValue nc l ++ ['"']) ++ t) =
      (ptTxt nc l.1, ptTxt nc l.2) :: lsegArrLoop 0 t := by
  have h1 := fun x => fmt_free ok x ',' (by simp)
  have h2 := fun x => fmt_free ok x ')' (by simp)
  have h3 := fun x => fmt_free ok x ']' (by simp)
  obtain ⟨d, w, hw⟩ : ∃ d w, nc.fmt l.2.1 = d :: w := List.exists_cons_of_ne_nil (ok.ne _)
  have e : (['"'] ++ lsegValue nc l ++ ['"']) ++ t =
      '"' :: '[' :: '(' :: (nc.fmt l.1.1 ++ ',' :: (nc.fmt l.1.2 ++ ')' :: ',' :: '(' :: d ::
        (w ++ ',' :: (nc.fmt l.2.2 ++ ')' :: ']' :: '"' :: t)))) := by
    simp [lsegValue, ptText, hw]
  have h1' : ',' ∉ w := fun h => h1 l.2.1 (by simp [hw, h])
  have h2' : ')' ∉ w := fun h => h2 l.2.1 (by simp [hw, h])
  have h3' : ']' ∉ w := fun h => h3 l.2.1 (by simp [hw, h])
  rw [e, lsegArrLoop, if_pos rfl]
  simp only [List.drop_succ_cons, List.drop_zero]
  rw [lsegInner_word _ _ _ _ _ _ _ (h1 _) (h2 _) (h3 _), lsegInner_comma,
    lsegInner_word _ _ _ _ _ _ _ (h1 _) (h2 _) (h3 _), lsegInner_close1,
    lsegInner_word _ _ _ _ _ _ _ h1' h2' h3', lsegInner_comma,
    lsegInner_word _ _ _ _ _ _ _ (h1 _) (h2 _) (h3 _), lsegInner_close2, lsegInner_end]
  simp only [List.nil_append, setX, setY, List.singleton_append, ← hw]
  rw [lsegArrLoop_skip, ← atComma_drop _ lsegArrLoop_comma t ht]
  congr 2
  have e3 : '[' :: '(' :: (nc.fmt l.1.1 ++ ',' :: (nc.fmt l.1.2 ++ ')' :: ',' :: '(' :: d ::
        (w ++ ',' :: (nc.fmt l.2.2 ++ ')' :: ']' :: '"' :: t)))) =
      ('[' :: '(' :: (nc.fmt l.1.1 ++ ',' :: (nc.fmt l.1.2 ++ ')' :: ',' :: '(' :: d ::
        (w ++ ',' :: (nc.fmt l.2.2 ++ b!")]\""))))) ++ t := by simp
  rw [e3, List.drop_append, List.drop_eq_nil_of_le, List.nil_append]
  · congr 1
    simp
    omega
  · simp
    omega

/-- C24: lseg[]. -/
theorem C24_lseg_arr (ls : List ((F × F) × F × F)) (d : Option (List ((F × F) × F × F))) :
    lsegArrScan nc d (lsegArrValue nc (some ls)) = .ok (some ls) := by
  rw [lsegArrValue, arrValue_some, lsegArrScan, scanKeep, parseLsegArray, dropEnds_wrap]
  have := join_loop (lsegArrLoop 0) (fun l => ['"'] ++ lsegValue nc l ++ ['"'])
    (fun l => (ptTxt nc l.1, ptTxt nc l.2)) ls rfl lsegArrLoop_comma
    (fun l _ t ht => lsegArrLoop_elem ok l t ht)
  simp only [Option.bind_eq_bind, Option.bind_some, pure, this, ofParse, Res.bind_ok]
  rw [mapRes_map (scanLseg nc) (fun l : (F × F) × F × F => (ptTxt nc l.1, ptTxt nc l.2)) id
    ls fun l _ => scanLseg_fmt ok l]
  simp

end

/-! ### line[] -/

theorem lineInner_word (w t cur : Bytes) (l : Bytes × Bytes × Bytes) (n o k : Nat) (h1 : ',' ∉ w)
    (h2 : '}' ∉ w) :
    lineInner l n cur o k (w ++ t) = lineInner l n (cur ++ w) (o + w.length) k t := by
  induction w generalizing cur o with
  | nil => simp
  | cons c w ih =>
    have hc : c ≠ ',' := fun e => h1 (by simp [e])
    have hd : c ≠ '}' := fun e => h2 (by simp [e])
    rw [List.cons_append, lineInner, if_neg hc, if_neg hd,
      ih _ _ (fun hm => h1 (by simp [hm])) (fun hm => h2 (by simp [hm]))]
    simp only [List.append_assoc, List.singleton_append, List.length_cons]
    congr 1; omega

theorem lineArrLoop_skip (k : Nat) (s : Bytes) : lineArrLoop k s = lineArrLoop 0 (s.drop k) := by
  induction s generalizing k with
  | nil => cases k <;> simp [lineArrLoop]
  | cons c s ih =>
    cases k with
    | zero => rfl
    | succ k => rw [lineArrLoop, ih k]; rfl

theorem lineArrLoop_comma (t : Bytes) : lineArrLoop 0 (',' :: t) = lineArrLoop 0 t := by
  rw [lineArrLoop, if_neg (by decide), if_neg (by decide)]

section
variable {F : Type} {nc : NumCodec F} (ok : nc.OK)
include ok

theorem lineArrLoop_elem (l : F × F × F) (t : Bytes) (ht : AtComma t) :
    lineArrLoop 0 ((['"'] ++ lineValue nc l ++ ['"']) ++ t) =
      (lineArrLoop 0 t).map ([(nc.fmt l.1, nc.fmt l.2.1, nc.fmt l.2.2)] ++ ·) := by
  have h1 := fun x => fmt_free ok x ',' (by simp)
  have h2 := fun x => fmt_free ok x '}' (by simp)
  have e : (['"'] ++ lineValue nc l ++ ['"']) ++ t =
      '"' :: '{' :: (nc.fmt l.1 ++ ',' :: (nc.fmt l.2.1 ++ ',' :: (nc.fmt l.2.2 ++
        '}' :: '"' :: t))) := by simp [lineValue]
  rw [e, lineArrLoop, if_pos rfl]
  simp only [List.drop_succ_cons, List.drop_zero]
  rw [lineInner_word _ _ _ _ _ _ _ (h1 _) (h2 _), lineInner, if_pos rfl]
  simp only [setLine]
  rw [lineInner_word _ _ _ _ _ _ _ (h1 _) (h2 _), lineInner, if_pos rfl]
  simp only [setLine]
  rw [lineInner_word _ _ _ _ _ _ _ (h1 _) (h2 _), lineInner, if_neg (by decide), if_pos rfl]
  simp only [List.nil_append]
  rw [lineArrLoop_skip, consO_eq, ← atComma_drop _ lineArrLoop_comma t ht]
  congr 2
  have e3 : '{' :: (nc.fmt l.1 ++ ',' :: (nc.fmt l.2.1 ++ ',' :: (nc.fmt l.2.2 ++
        '}' :: '"' :: t))) = ('{' :: (nc.fmt l.1 ++ ',' :: (nc.fmt l.2.1 ++ ',' :: (nc.fmt l.2.2 ++
        b!"}\"")))) ++ t := by simp
  rw [e3, List.drop_append, List.drop_eq_nil_of_le, List.nil_append]
  · congr 1
    simp
    omega
  · simp
    omega

/-- C24: line[]. -/
theorem C24_line_arr (ls : List (F × F × F)) (d : Option (List (F × F × F))) :
    lineArrScan nc d (lineArrValue nc (some ls)) = .ok (some ls) := by
  rw [lineArrValue, arrValue_some, lineArrScan, scanKeep, parseLineArray, dropEnds_wrap]
  have := join_loopO (lineArrLoop 0) (fun l => ['"'] ++ lineValue nc l ++ ['"'])
    (fun l => [(nc.fmt l.1, nc.fmt l.2.1, nc.fmt l.2.2)]) ls rfl lineArrLoop_comma
    (fun l _ t ht => lineArrLoop_elem ok l t ht)
  simp only [Option.bind_eq_bind, Option.bind_some, this, ofParse, Res.bind_ok]
  have e : ls.flatMap (fun l => [(nc.fmt l.1, nc.fmt l.2.1, nc.fmt l.2.2)]) =
      ls.map (fun l => (nc.fmt l.1, nc.fmt l.2.1, nc.fmt l.2.2)) := by
    clear this
    induction ls <;> simp_all
  rw [e, mapRes_map (scanLine nc) _ id ls fun l _ => scanLine_fmt ok l]
  simp

end

/-! ### path[] and polygon[] -/

theorem polyInner_skip (d : PtDelims) (o k : Nat) (s : Bytes) (h : k ≤ s.length) :
    polyInner d o k s = polyInner d (o + k) 0 (s.drop k) := by
  induction s generalizing k o with
  | nil =>
    have : k = 0 := by simpa using h
    subst this; rfl
  | cons c s ih =>
    cases k with
    | zero => rfl
    | succ k =>
      rw [polyInner, ih _ _ (by simpa using h)]
      simp only [List.drop_succ_cons]
      congr 1; omega

theorem polyArrLoop_skip (d : PtDelims) (k : Nat) (s : Bytes) :
    polyArrLoop d k s = polyArrLoop d 0 (s.drop k) := by
  induction s generalizing k with
  | nil => cases k <;> simp [polyArrLoop]
  | cons c s ih =>
    cases k with
    | zero => rfl
    | succ k => rw [polyArrLoop, ih k]; rfl

theorem polyArrLoop_comma (d : PtDelims) (t : Bytes) :
    polyArrLoop d 0 (',' :: t) = polyArrLoop d 0 t := by
  rw [polyArrLoop, if_neg (by decide), if_neg (by decide)]

/-- The delimiters of a point are among the ones numbers do not have. -/
structure PtDelims.OK (d : PtDelims) : Prop where
  opens : d.opens '(' = true
  opensComma : d.opens ',' = false
  opensQuote : d.opens '"' = false
  opensEnd : d.opens ')' = false ∧ d.opens ']' = false
  closes : d.closes ')' = true
  closed : ∀ c, d.closes c = true → c = ')' ∨ c = ']'

theorem polyDelims_ok : polyDelims.OK :=
  ⟨by decide, by decide, by decide, by decide, by decide, by
    intro c h; left; simpa [polyDelims, isRParen] using h⟩

theorem pathDelims_ok : pathDelims.OK :=
  ⟨by decide, by decide, by decide, by decide, by decide, by
    intro c h
    have : c = ']' ∨ c = ')' := by simpa [pathDelims] using h
    exact this.symm⟩

section
variable {F : Type} {nc : NumCodec F} (ok : nc.OK) (d : PtDelims) (hd : d.OK)
include ok hd

theorem polyInner_pt (p : F × F) (t : Bytes) (o : Nat) :
    polyInner d o 0 (ptText nc p ++ t) =
      (polyInner d (o + (ptText nc p).length) 0 t).map fun x => (ptTxt nc p :: x.1, x.2) := by
  have e : ptText nc p ++ t = '(' :: (nc.fmt p.1 ++ ',' :: (nc.fmt p.2 ++ ')' :: t)) := by
    simp [ptText]
  have hcl : ∀ x, ∀ c ∈ nc.fmt x, d.closes c = false := by
    intro x c hc
    cases h : d.closes c with
    | false => rfl
    | true =>
      rcases hd.closed c h with rfl | rfl
      · exact absurd hc (fmt_free ok x _ (by simp))
      · exact absurd hc (fmt_free ok x _ (by simp))
  have h := ptLoop_point d.closes (nc.fmt p.1) (nc.fmt p.2) t ')' (fmt_free ok _ _ (by simp))
    (fmt_free ok _ _ (by simp)) (hcl _) (hcl _) hd.closes (by decide)
  rw [e, polyInner, if_pos hd.opens, h]
  simp only
  rw [polyInner_skip _ _ _ _ (by simp; omega), drop_point]
  have e2 : o + 1 + ((nc.fmt p.1).length + 1 + (nc.fmt p.2).length + 1) =
      o + (ptText nc p).length := by simp [ptText]; omega
  rw [e2]
  rfl

theorem polyInner_pts (p : F × F) (ps : List (F × F)) (t : Bytes) (c : Char) (o : Nat)
    (hc : d.opens c = false) (hc' : c ≠ '"') :
    polyInner d o 0 (joinWith b!"," ((p :: ps).map (ptText nc)) ++ c :: '"' :: t) =
      some ((p :: ps).map (ptTxt nc),
        o + (joinWith b!"," ((p :: ps).map (ptText nc))).length + 2) := by
  induction ps generalizing p o with
  | nil =>
    simp only [List.map_cons, List.map_nil, joinWith]
    rw [polyInner_pt ok d hd, polyInner, if_neg (by simp [hc]), if_neg hc', polyInner,
      if_neg (by simp [hd.opensQuote]), if_pos rfl]
    rfl
  | cons q ps ih =>
    have := ih q (o + (ptText nc p).length + 1)
    simp only [List.map_cons] at this ⊢
    rw [joinWith, List.append_assoc, List.append_assoc, polyInner_pt ok d hd, List.singleton_append,
      polyInner, if_neg (by simp [hd.opensComma]), if_neg (by decide), this]
    simp
    omega

theorem polyArrLoop_elem (a c : Char) (hc : d.opens c = false) (hc' : c ≠ '"')
    (v : Option (List (F × F))) (hv : v ≠ some []) (t : Bytes) (ht : AtComma t) :
    polyArrLoop d 0 (ptsElem nc a c v ++ t) = v.map (·.map (ptTxt nc)) :: polyArrLoop d 0 t := by
  match v, hv with
  | none, _ =>
    have : polyArrLoop d 0 (b!"NULL" ++ t) = none :: polyArrLoop d 0 (t.drop 1) := by
      simp only [List.cons_append, List.nil_append]
      rw [polyArrLoop, if_neg (by decide), if_pos rfl, polyArrLoop_skip]
      rfl
    rw [atComma_drop (polyArrLoop d 0) (polyArrLoop_comma d) t ht] at this
    exact this
  | some (p :: ps), _ =>
    have e : ptsElem nc a c (some (p :: ps)) ++ t =
        '"' :: a :: (joinWith b!"," ((p :: ps).map (ptText nc)) ++ c :: '"' :: t) := by
      rw [ptsElem, ptsText_cons]; simp
    rw [e, polyArrLoop, if_pos rfl]
    simp only [List.drop_succ_cons, List.drop_zero]
    rw [polyInner_pts ok d hd p ps t c 1 hc hc']
    simp only [nilIfEmpty]
    rw [if_neg (by simp), polyArrLoop_skip]
    simp only [Option.map_some]
    congr 2
    have e3 : a :: (joinWith b!"," ((p :: ps).map (ptText nc)) ++ c :: '"' :: t) =
        (a :: (joinWith b!"," ((p :: ps).map (ptText nc)) ++ [c, '"'])) ++ t := by simp
    rw [e3, List.drop_append, List.drop_eq_nil_of_le, List.nil_append]
    · have : 1 + (joinWith b!"," ((p :: ps).map (ptText nc))).length + 2 -
          (a :: (joinWith b!"," ((p :: ps).map (ptText nc)) ++ [c, '"'])).length = 0 := by
        simp; omega
      rw [this]
      rfl
    · simp; omega

omit hd in
theorem mapRes_scanPts (vs : List (Option (List (F × F)))) :
    mapRes (scanPts nc) (vs.map fun v => v.map (·.map (ptTxt nc))) = .ok vs := by
  rw [mapRes_map (scanPts nc) _ id vs]
  · simp
  · intro v _
    cases v with
    | none => rfl
    | some ps =>
      rw [Option.map_some, scanPts, mapRes_pts ok]; rfl

end

section
variable {F : Type} {nc : NumCodec F} (ok : nc.OK)
include ok

/-- C24: path[], for elements that are nil or not empty. -/
theorem C24_path_arr_partial (v d : Option (List (Option (List (F × F)))))
    (h : ∀ vs, v = some vs → some [] ∉ vs) : pathArrScan nc d (pathArrValue nc v) = .ok v := by
  cases v with
  | none => rfl
  | some vs =>
    rw [pathArrValue, arrValue_some, pathArrScan, scanReset, parsePathArray, dropEnds_wrap]
    have := join_loop (polyArrLoop pathDelims 0) (ptsElem nc '[' ']')
      (fun v => v.map (·.map (ptTxt nc))) vs rfl (polyArrLoop_comma _)
      (fun v hv t ht => polyArrLoop_elem ok _ pathDelims_ok _ _ (by decide) (by decide) v
        (fun e => h vs rfl (e ▸ hv)) t ht)
    simp only [Option.bind_eq_bind, Option.bind_some, pure, this, ofParse, Res.bind_ok]
    rw [mapRes_scanPts ok]
    rfl

/-- C24: polygon[], for elements that are nil or not empty. -/
theorem C24_polygon_arr_partial (v d : Option (List (Option (List (F × F)))))
    (h : ∀ vs, v = some vs → some [] ∉ vs) :
    polygonArrScan nc d (polygonArrValue nc v) = .ok v := by
  cases v with
  | none => rfl
  | some vs =>
    rw [polygonArrValue, arrValue_some, polygonArrScan, scanReset, parsePolygonArray, dropEnds_wrap]
    have := join_loop (polyArrLoop polyDelims 0) (ptsElem nc '(' ')')
      (fun v => v.map (·.map (ptTxt nc))) vs rfl (polyArrLoop_comma _)
      (fun v hv t ht => polyArrLoop_elem ok _ polyDelims_ok _ _ (by decide) (by decide) v
        (fun e => h vs rfl (e ▸ hv)) t ht)
    simp only [Option.bind_eq_bind, Option.bind_some, pure, this, ofParse, Res.bind_ok]
    rw [mapRes_scanPts ok]
    rfl

omit ok in
/-- C24 fails for an empty path or polygon in an array: the literal has a lone closing delimiter for
it, and it is scanned to nil. -/
theorem C24_not_arr_empty (d : Option (List (Option (List (F × F))))) :
    pathArrValue nc (some [some []]) = some b!"{\"]\"}" ∧
    pathArrScan nc d (some b!"{\"]\"}") = .ok (some [none]) ∧
    polygonArrValue nc (some [some []]) = some b!"{\")\"}" ∧
    polygonArrScan nc d (some b!"{\")\"}") = .ok (some [none]) := ⟨rfl, rfl, rfl, rfl⟩

/-! What the server makes of the array literals -/

theorem ptText_free (p : F × F) : '"' ∉ ptText nc p ∧ '\\' ∉ ptText nc p := by
  have h1 := fun x => fmt_free ok x '"' (by simp)
  have h2 := fun x => fmt_free ok x '\\' (by simp)
  simp [ptText, h1, h2]

omit ok in
theorem readsAs_wrapped (w : Bytes) (h1 : '"' ∉ w) (h2 : '\\' ∉ w) :
    ReadsAs (['"'] ++ w ++ ['"']) (some w) := by
  have := readsAs_quoted _ covers_out w
  rw [escWith_none] at this
  · simpa using this
  · intro c hc
    rw [decide_eq_false_iff_not]
    rintro (rfl | rfl)
    · exact h1 hc
    · exact h2 hc

/-- C24: the server reads the point[] literal as the texts of the points. -/
theorem C24_point_arr_server (ps : List (F × F)) : ∃ lit, pointArrValue nc (some ps) = some lit ∧
    arrayIn lit = some (ps.map fun p => some (pointValue nc p)) :=
  ⟨_, arrValue_some _ _, arrayIn_lit _ _ ps fun p _ =>
    readsAs_wrapped _ (ptText_free ok p).1 (ptText_free ok p).2⟩

/-- C24: the server reads the lseg[] literal as the texts of the segments. -/
theorem C24_lseg_arr_server (ls : List ((F × F) × F × F)) : ∃ lit,
    lsegArrValue nc (some ls) = some lit ∧
    arrayIn lit = some (ls.map fun l => some (lsegValue nc l)) := by
  refine ⟨_, arrValue_some _ _, arrayIn_lit _ _ ls fun l _ => readsAs_wrapped _ ?_ ?_⟩
  · simp [lsegValue, (ptText_free ok l.1).1, (ptText_free ok l.2).1]
  · simp [lsegValue, (ptText_free ok l.1).2, (ptText_free ok l.2).2]

/-- C24: the server reads the line[] literal as the texts of the lines. -/
theorem C24_line_arr_server (ls : List (F × F × F)) : ∃ lit,
    lineArrValue nc (some ls) = some lit ∧
    arrayIn lit = some (ls.map fun l => some (lineValue nc l)) := by
  have h1 := fun x => fmt_free ok x '"' (by simp)
  have h2 := fun x => fmt_free ok x '\\' (by simp)
  refine ⟨_, arrValue_some _ _, arrayIn_lit _ _ ls fun l _ => readsAs_wrapped _ ?_ ?_⟩
  · simp [lineValue, h1]
  · simp [lineValue, h2]

theorem ptsText_free (o c : Char) (ho : o ≠ '"' ∧ o ≠ '\\') (hc : c ≠ '"' ∧ c ≠ '\\')
    (ps : List (F × F)) (hp : ps ≠ []) : '"' ∉ ptsText nc o c ps ∧ '\\' ∉ ptsText nc o c ps := by
  match ps, hp with
  | p :: ps, _ =>
    rw [ptsText_cons]
    have key : ∀ z, (∀ q : F × F, z ∉ ptText nc q) → z ≠ ',' → o ≠ z → c ≠ z →
        z ∉ o :: (joinWith b!"," ((p :: ps).map (ptText nc)) ++ [c]) := by
      intro z hz hcomma hoz hcz hm
      rcases List.mem_cons.mp hm with rfl | hm
      · exact hoz rfl
      · rcases List.mem_append.mp hm with hm | hm
        · rcases mem_joinWith _ hm with hm | ⟨w, hw, hm⟩
          · simp at hm; exact hcomma hm
          · obtain ⟨q, -, rfl⟩ := List.mem_map.mp hw
            exact hz q hm
        · simp at hm; exact hcz hm.symm
    exact ⟨key '"' (fun q => (ptText_free ok q).1) (by decide) ho.1 hc.1,
      key '\\' (fun q => (ptText_free ok q).2) (by decide) ho.2 hc.2⟩

theorem ptsElem_reads (o c : Char) (ho : o ≠ '"' ∧ o ≠ '\\') (hc : c ≠ '"' ∧ c ≠ '\\')
    (v : Option (List (F × F))) (hv : v ≠ some []) :
    ReadsAs (ptsElem nc o c v) (v.map (ptsText nc o c)) := by
  match v, hv with
  | none, _ => exact readsAs_null
  | some (p :: ps), _ =>
    have := ptsText_free ok o c ho hc (p :: ps) (by simp)
    exact readsAs_wrapped _ this.1 this.2

/-- C24: the server reads the path[] literal as the texts of the paths. -/
theorem C24_path_arr_server_partial (vs : List (Option (List (F × F)))) (h : some [] ∉ vs) : ∃ lit,
    pathArrValue nc (some vs) = some lit ∧ arrayIn lit = some (vs.map (pathValue nc)) := by
  refine ⟨_, arrValue_some _ _, arrayIn_lit _ _ vs fun v hv => ?_⟩
  have hv' : v ≠ some [] := fun e => h (e ▸ hv)
  have := ptsElem_reads ok '[' ']' (by decide) (by decide) v hv'
  match v, hv', this with
  | none, _, this => exact this
  | some (p :: ps), _, this => exact this

/-- C24: the server reads the polygon[] literal as the texts of the polygons. -/
theorem C24_polygon_arr_server_partial (vs : List (Option (List (F × F)))) (h : some [] ∉ vs) :
    ∃ lit, polygonArrValue nc (some vs) = some lit ∧ arrayIn lit = some (vs.map (polygonValue nc)) := by
  refine ⟨_, arrValue_some _ _, arrayIn_lit _ _ vs fun v hv => ?_⟩
  have hv' : v ≠ some [] := fun e => h (e ▸ hv)
  have := ptsElem_reads ok '(' ')' (by decide) (by decide) v hv'
  match v, hv', this with
  | none, _, this => exact this
  | some (p :: ps), _, this => exact this

end

/-- C24: numbers of more than one sign, and NULL in a point, lseg or line array, are errors of
`ParseFloat`, shown for integers. -/
example : pointArrScan intCodec none (some b!"{\"(1,2)\",NULL}") = .err .syntax := by decide +kernel
example : pointValue intCodec (1, -2) = b!"(1,-2)" := by decide
example : lsegArrValue intCodec (some [((1, 2), (3, 4)), ((5, 6), (7, 8))]) =
    some b!"{\"[(1,2),(3,4)]\",\"[(5,6),(7,8)]\"}" := by decide +kernel
example : polygonArrValue intCodec (some [none, some [(1, 2), (3, 4)]]) =
    some b!"{NULL,\"((1,2),(3,4))\"}" := by decide +kernel
example : boxArrValue intCodec (some [((1, 2), (3, 4)), ((5, 6), (7, 8))]) =
    some b!"{(1,2),(3,4);(5,6),(7,8)}" := by decide +kernel
example : lineArrScan intCodec none (some b!"{\"{1,2,3}\",\"{4,5,6}\"}") =
    .ok (some [(1, 2, 3), (4, 5, 6)]) := by decide +kernel
/-- A malformed line panics. -/
example : lineArrScan intCodec none (some b!"{\"{1,2,3,4,5}\"}") = .panic := by decide +kernel

end Verif.Pgsql
