import Verif.Pgsql.PropsNet3
import Verif.Pgsql.Lemmas5
/-
C77: inet[] and cidr[]; cases.
-/
namespace Verif.Pgsql

open Verif Verif.PgServer

/-- The characters of the texts of addresses and networks. -/
def NetChars (t : Bytes) : Prop := ∀ c ∈ t, isHex c = true ∨ c = ':' ∨ c = '.' ∨ c = '/'

theorem isHex_dig {c : Char} (h : isDig 10 c = true) : isHex c = true := by
  have h0 : ('0' : Char).toNat = 48 := rfl
  have h9 : ('9' : Char).toNat = 57 := rfl
  simp only [isDig, Bool.and_eq_true, decide_eq_true_eq, h0] at h
  rw [isHex, fromHex, if_pos (by omega)]
  rfl

theorem inetText_chars {t : Bytes} {v : Inet} (h : CidrText t v ∨ InetText t v) : NetChars t := by
  have h1 : ∀ t bs, AddrText t bs → NetChars t := fun t bs h c hc =>
    (addrText_chars h c hc).imp id fun h => h.imp id .inl
  have h2 : CidrText t v → NetChars t := by
    rintro ⟨a, ha, rfl⟩ c hc
    rcases List.mem_append.1 hc with hc | hc
    · exact h1 _ _ ha c hc
    · rcases List.mem_cons.1 hc with rfl | hc
      · simp
      · exact .inl (isHex_dig (isDig_toDigits 10 _ (by decide) (by decide) _ hc))
  rcases h with h | h
  · exact h2 h
  · rw [InetText] at h
    split at h
    · exact h1 _ _ h
    · exact h2 h

theorem inetText_ne_nil {t : Bytes} {v : Inet} (h : CidrText t v ∨ InetText t v) : t ≠ [] := by
  have h2 : CidrText t v → t ≠ [] := by
    rintro ⟨a, ha, rfl⟩; simp
  rcases h with h | h
  · exact h2 h
  · rw [InetText] at h
    split at h
    · exact addrText_ne_nil h
    · exact h2 h

theorem netChars_plain {t : Bytes} (h : NetChars t) : ',' ∉ t ∧ Plain t ∧ isNull t = false := by
  refine ⟨fun hc => ?_, fun c hc => ?_, ?_⟩
  · have := h _ hc; revert this; decide
  · rcases h c hc with h | rfl | rfl | rfl
    · exact (isHex_free h).2.2 |>.imp id fun h' => ⟨h'.1, h'.2.1, h'.2.2.1, h'.2.2.2, (isHex_free h).2.1⟩
    · decide
    · decide
    · decide
  · cases hn : isNull t with
    | false => rfl
    | true =>
      exfalso
      have hl : t.map lower = b!"null" := by simpa [isNull] using hn
      have hm : 'u' ∈ t.map lower := by rw [hl]; decide
      obtain ⟨c, hc, hu⟩ := List.mem_map.mp hm
      rcases h c hc with h | rfl | rfl | rfl
      · by_cases hA : 'A'.toNat ≤ c.toNat ∧ c.toNat ≤ 'F'.toNat
        · have hA' : 65 ≤ c.toNat ∧ c.toNat ≤ 70 := hA
          have : c.toNat + 32 ≤ 102 ∧ 97 ≤ c.toNat + 32 := by omega
          rw [lower, if_pos ⟨hA.1, by have : ('Z' : Char).toNat = 90 := rfl; omega⟩] at hu
          have hk : ∀ n ≤ 102, Char.ofNat n ≠ 'u' := by decide
          exact hk _ this.1 hu
        · have h9 : ('9' : Char).toNat = 57 := rfl
          have hf : ('f' : Char).toNat = 102 := rfl
          have hAA : ('A' : Char).toNat = 65 := rfl
          have hZ : ('Z' : Char).toNat = 90 := rfl
          have ha : ('a' : Char).toNat = 97 := rfl
          rw [isHex, fromHex, if_neg hA] at h
          split at h
          · rename_i hd
            rw [lower, if_neg (by omega)] at hu
            subst hu; revert hd; decide
          · split at h
            · rename_i hd
              rw [lower, if_neg (by omega)] at hu
              subst hu; revert hd; decide
            · cases h
      · revert hu; decide
      · revert hu; decide
      · revert hu; decide

theorem elemOut_net {t : Bytes} (h : NetChars t) (h0 : t ≠ []) : elemOut (some t) = t := by
  obtain ⟨-, hp, hn⟩ := netChars_plain h
  rw [elemOut, if_neg]
  have h1 : t.isEmpty = false := by simpa using h0
  rw [needsQuote, h1, hn, Bool.false_or, Bool.false_or, Bool.not_eq_true, List.any_eq_false]
  intro c hc
  obtain ⟨h1, h2, h3, h4, h5, h6⟩ := hp c hc
  simp [h1, h2, h3, h4, h5, h6]

theorem readsAs_net {t : Bytes} (h : NetChars t) (h0 : t ≠ []) : ReadsAs t (some t) := by
  obtain ⟨-, hp, hn⟩ := netChars_plain h
  refine readsAs_plain _ hp h0 _ ?_
  rw [bareElem, trimEnd_plain _ hp, hn]
  rfl

/-- The elements of an array of the server: texts with the values they stand for. -/
def ServerElems (P : Bytes → Inet → Prop) (xs : List (Option (Bytes × Inet))) : Prop :=
  ∀ t v, some (t, v) ∈ xs → P t v

theorem arrayOut_net (xs : List (Option (Bytes × Inet)))
    (h : ServerElems (fun t v => CidrText t v ∨ InetText t v) xs) :
    arrayOut (xs.map fun x => x.map (·.1)) =
      '{' :: (joinWith b!"," (xs.map fun x => (x.map (·.1)).getD b!"NULL") ++ ['}']) := by
  rw [arrayOut, List.map_map, List.cons_append]
  congr 3
  refine List.map_congr_left fun x hx => ?_
  match x, hx with
  | none, _ => rfl
  | some (t, v), hx => exact elemOut_net (inetText_chars (h t v hx)) (inetText_ne_nil (h t v hx))

theorem netElem_free {xs : List (Option (Bytes × Inet))}
    (h : ServerElems (fun t v => CidrText t v ∨ InetText t v) xs) :
    (∀ x ∈ xs, ',' ∉ (x.map (·.1)).getD b!"NULL") ∧ ∀ x ∈ xs, (x.map (·.1)).getD b!"NULL" ≠ [] := by
  refine ⟨fun x hx => ?_, fun x hx => ?_⟩
  · match x, hx with
    | none, _ => decide
    | some (t, v), hx => exact (netChars_plain (inetText_chars (h t v hx))).1
  · match x, hx with
    | none, _ => decide
    | some (t, v), hx => exact inetText_ne_nil (h t v hx)

/-- **C77** The server's inet[] is scanned into IPs element by element; NULL and addresses with a prefix become
nil. -/
theorem C77_ip_arr_server (xs : List (Option (Bytes × Inet))) (d : Option (List (Option Raw)))
    (h : ServerElems InetText xs) :
    inetArrToIPs d (some (arrayOut (xs.map fun x => x.map (·.1)))) =
      .ok (some (xs.map fun x => x.bind fun p =>
        if p.2.bits = 8 * p.2.addr.length then some (as16 p.2.addr) else none)) := by
  have h' : ServerElems (fun t v => CidrText t v ∨ InetText t v) xs := fun t v hx => .inr (h t v hx)
  rw [arrayOut_net xs h', inetArrToIPs, scanReset]
  obtain ⟨h1, h2⟩ := netElem_free h'
  rw [comma_scan_map parseIP _ _ xs h1 h2 ?_]
  · rfl
  · intro x hx
    match x, hx with
    | none, _ => decide
    | some (t, v), hx =>
      have := C77_ip_server t v none (h t v hx)
      rw [inetToIP, scanKeep] at this
      exact Res.ok.inj this

theorem mapRes_congr {α β γ : Type} (f : β → SR γ) (g : α → β) (k : α → SR γ) (xs : List α)
    (h : ∀ x ∈ xs, f (g x) = k x) : mapRes f (xs.map g) = mapRes k xs := by
  induction xs with
  | nil => rfl
  | cons x xs ih =>
    rw [List.map_cons, mapRes, mapRes, h x (by simp), ih fun y hy => h y (by simp [hy])]

theorem comma_scan_congr {α β : Type} (f : Bytes → SR β) (g : α → Bytes) (k : α → SR β) (xs : List α)
    (hc : ∀ x ∈ xs, ',' ∉ g x) (h0 : ∀ x ∈ xs, g x ≠ []) (hf : ∀ x ∈ xs, f (g x) = k x) :
    (ofParse (parseCommaArray ('{' :: (joinWith b!"," (xs.map g) ++ ['}'])))).bind (mapRes f) = mapRes k xs := by
  rw [parseCommaArray_lit]
  · simp only [ofParse, Res.bind_ok]
    exact mapRes_congr f g k xs hf
  · intro y hy
    obtain ⟨x, hx, rfl⟩ := List.mem_map.mp hy
    exact hc x hx
  · intro e
    match xs, h0, e with
    | [], _, e => cases e
    | x :: _, h0, e => exact h0 x (by simp) (List.cons.inj e).1

/-- **C77** The server's inet[] is scanned into networks element by element; NULL becomes the zero IPNet. -/
theorem C77_net_arr_server (xs : List (Option (Bytes × Inet))) (d : Option (List IPNet))
    (h : ServerElems InetText xs) :
    inetArrToNets d (some (arrayOut (xs.map fun x => x.map (·.1)))) =
      (mapRes (fun x : Option (Bytes × Inet) => inetToNet { ip := none, mask := none } (x.map (·.1))) xs).map some := by
  have h' : ServerElems (fun t v => CidrText t v ∨ InetText t v) xs := fun t v hx => .inr (h t v hx)
  obtain ⟨h1, h2⟩ := netElem_free h'
  rw [arrayOut_net xs h', inetArrToNets, scanReset]
  rw [comma_scan_congr inetElem _ _ xs h1 h2]
  intro x hx
  match x, hx with
  | none, _ => show inetElem b!"NULL" = .ok _; decide
  | some (t, v), _ => rfl

theorem mapRes_one_err {α β : Type} (f : α → SR β) (e : ScanErr) (xs : List α)
    (h : ∀ x ∈ xs, f x = .err e ∨ ∃ y, f x = .ok y) (hx : ∃ x ∈ xs, f x = .err e) : mapRes f xs = .err e := by
  induction xs with
  | nil => obtain ⟨x, hx, -⟩ := hx; cases hx
  | cons x xs ih =>
    rw [mapRes]
    rcases h x (by simp) with h1 | ⟨y, h1⟩
    · rw [h1]; rfl
    · rw [h1, Res.bind_ok, ih (fun z hz => h z (by simp [hz]))]
      · rfl
      · obtain ⟨z, hz, h2⟩ := hx
        rcases List.mem_cons.1 hz with rfl | hz
        · rw [h1] at h2; cases h2
        · exact ⟨z, hz, h2⟩

/-- **C77** The server's cidr[] is scanned element by element; NULL in it is an error. -/
theorem C77_cidr_arr_server (xs : List (Option (Bytes × Inet))) (d : Option (List IPNet))
    (h : ServerElems (fun t v => v.Valid ∧ v.Network ∧ CidrText t v) xs) :
    (none ∈ xs → cidrArrToNets d (some (arrayOut (xs.map fun x => x.map (·.1)))) = .err .net) ∧
    (none ∉ xs → ∃ ns, cidrArrToNets d (some (arrayOut (xs.map fun x => x.map (·.1)))) = .ok (some ns) ∧
      mapRes (fun x : Option (Bytes × Inet) => cidrToNet { ip := none, mask := none } (x.map (·.1))) xs = .ok ns) := by
  have h' : ServerElems (fun t v => CidrText t v ∨ InetText t v) xs := fun t v hx => .inl (h t v hx).2.2
  obtain ⟨h1, h2⟩ := netElem_free h'
  have hz : parseCIDR b!"NULL" = .err .net := by decide
  rw [arrayOut_net xs h', cidrArrToNets, scanReset,
    comma_scan_congr parseCIDR _ (fun x => parseCIDR ((x.map (·.1)).getD b!"NULL")) xs h1 h2 fun _ _ => rfl]
  refine ⟨fun hn => ?_, fun hn => ?_⟩
  · rw [mapRes_one_err _ .net]
    · rfl
    · intro x hx
      match x, hx with
      | none, _ => exact .inl hz
      | some (t, v), hx =>
        obtain ⟨hv, hw, ht⟩ := h t v hx
        exact .inr ⟨_, parseCIDR_network ht hv hw⟩
    · exact ⟨none, hn, hz⟩
  · have key : ∀ ys : List (Option (Bytes × Inet)), (∀ y ∈ ys, y ∈ xs) → ∃ ns,
        mapRes (fun x : Option (Bytes × Inet) => parseCIDR ((x.map (·.1)).getD b!"NULL")) ys = .ok ns ∧
        mapRes (fun x : Option (Bytes × Inet) => cidrToNet { ip := none, mask := none } (x.map (·.1))) ys = .ok ns := by
      intro ys hy
      induction ys with
      | nil => exact ⟨[], rfl, rfl⟩
      | cons y ys ih =>
        obtain ⟨ns, e1, e2⟩ := ih fun z hz => hy z (by simp [hz])
        match y, hy with
        | none, hy => exact absurd (hy none (by simp)) hn
        | some (t, v), hy =>
          obtain ⟨hv, hw, ht⟩ := h t v (hy _ (by simp))
          have hp := parseCIDR_network ht hv hw
          refine ⟨{ ip := some v.addr, mask := some (cidrMask v.addr.length v.bits) } :: ns, ?_, ?_⟩
          · rw [mapRes, e1, Option.map_some, Option.getD_some, hp]; rfl
          · rw [mapRes, e2, Option.map_some, cidrToNet, scanKeep, hp]; rfl
    obtain ⟨ns, e1, e2⟩ := key xs fun _ h => h
    exact ⟨ns, by rw [e1]; rfl, e2⟩

/-! ### Values written by the codecs -/

theorem canonical_chars {n : IPNet} {v : Inet} (h : Canonical n v) :
    NetChars n.text ∧ n.text ≠ [] ∧ inetFromNet n = some n.text := by
  obtain ⟨t, e1, -, ht⟩ := C77_net_text n v h
  have e : inetFromNet n = some n.text := by rw [inetFromNet, if_neg]; rw [h.ip]; simp
  obtain rfl : n.text = t := Option.some.inj (e.symm.trans e1)
  exact ⟨inetText_chars (.inl ht), inetText_ne_nil (.inl ht), e⟩

/-- **C77** The server reads an array of networks as the elements. -/
theorem C77_net_arr_in (ns : List IPNet) (h : ∀ n ∈ ns, ∃ v, Canonical n v) :
    ∃ lit, netArrValue (some ns) = some lit ∧ arrayIn lit = some (ns.map inetFromNet) := by
  refine ⟨_, arrValue_some _ _, arrayIn_lit _ _ ns fun n hn => ?_⟩
  obtain ⟨v, hv⟩ := h n hn
  obtain ⟨h1, h2, h3⟩ := canonical_chars hv
  rw [h3]
  exact readsAs_net h1 h2

/-- **C77** Arrays of networks without bits behind the prefix are scanned as they were written. -/
theorem C77_net_arr_round_trip (ns : List IPNet) (d : Option (List IPNet))
    (h : ∀ n ∈ ns, ∃ v, Canonical n v ∧ v.Network) :
    inetArrToNets d (netArrValue (some ns)) = .ok (some ns) ∧
    cidrArrToNets d (netArrValue (some ns)) = .ok (some ns) := by
  have h1 : ∀ n ∈ ns, ',' ∉ n.text := fun n hn => by
    obtain ⟨v, hv, -⟩ := h n hn
    exact (netChars_plain (canonical_chars hv).1).1
  have h2 : ∀ n ∈ ns, n.text ≠ [] := fun n hn => by
    obtain ⟨v, hv, -⟩ := h n hn
    exact (canonical_chars hv).2.1
  have h3 : ∀ n ∈ ns, parseCIDR n.text = .ok n ∧ inetElem n.text = .ok n := fun n hn => by
    obtain ⟨v, hv, hw⟩ := h n hn
    have e := (canonical_chars hv).2.2
    have h3 := C77_net_round_trip n v n hv hw
    obtain ⟨t, e1, e2, -⟩ := C77_net_text n v hv
    obtain rfl : n.text = t := Option.some.inj (e.symm.trans e1)
    rw [e1, e2] at h3
    exact h3
  rw [netArrValue, arrValue_some, inetArrToNets, cidrArrToNets, scanReset, scanReset,
    comma_scan _ _ id ns h1 h2 fun n hn => (h3 n hn).1, comma_scan _ _ id ns h1 h2 fun n hn => (h3 n hn).2,
    List.map_id]
  exact ⟨rfl, rfl⟩

theorem ipText_chars (ip : Raw) (h : ip.length = 4 ∨ ip.length = 16) : NetChars (ipText ip) ∧ ipText ip ≠ [] := by
  have ht := ipText_text ip h
  exact ⟨fun c hc => (addrText_chars ht c hc).imp id fun h => h.imp id .inl, addrText_ne_nil ht⟩

/-- **C77** The server reads an array of IPs as the elements. -/
theorem C77_ip_arr_in (ips : List Raw) (h : ∀ ip ∈ ips, ip.length = 4 ∨ ip.length = 16) :
    ∃ lit, ipArrValue (some (ips.map some)) = some lit ∧
      arrayIn lit = some (ips.map fun ip => inetFromIP (some ip)) := by
  refine ⟨_, arrValue_some _ _, ?_⟩
  rw [List.map_map]
  refine arrayIn_lit _ _ ips fun ip hi => ?_
  obtain ⟨h1, h2⟩ := ipText_chars ip (h ip hi)
  exact readsAs_net h1 h2

/-- **C77** It is scanned as the same addresses in 16 bytes. -/
theorem C77_ip_arr_round_trip (ips : List Raw) (d : Option (List (Option Raw)))
    (h : ∀ ip ∈ ips, ip.length = 4 ∨ ip.length = 16) :
    inetArrToIPs d (ipArrValue (some (ips.map some))) = .ok (some (ips.map fun ip => some (as16 ip))) := by
  rw [ipArrValue, arrValue_some, List.map_map, inetArrToIPs, scanReset,
    comma_scan_map parseIP _ (fun ip => some (as16 ip)) ips]
  · rfl
  · exact fun ip hi => (netChars_plain (ipText_chars ip (h ip hi)).1).1
  · exact fun ip hi => (ipText_chars ip (h ip hi)).2
  · intro ip hi
    exact (parseIP_text (ipText_text ip (h ip hi))).trans (by rw [as16_addrOf])

/-- **C77** nil is NULL and NULL is nil. -/
theorem C77_arr_null (d : Option (List IPNet)) (d' : Option (List (Option Raw))) :
    netArrValue none = none ∧ ipArrValue none = none ∧ inetArrToNets d none = .ok none ∧
    cidrArrToNets d none = .ok none ∧ inetArrToIPs d' none = .ok none := ⟨rfl, rfl, rfl, rfl, rfl⟩

/-! ### Cases -/

/-- **C77**, a case: the host 192.168.0.1 in 192.168.0.0/24 is lost. -/
theorem C77_not_inet_host : ∃ t v, v.Valid ∧ InetText t v ∧
    inetToNet { ip := none, mask := none } (some t) =
      .ok { ip := some [192, 168, 0, 0], mask := some [255, 255, 255, 0] } ∧ v.addr = [192, 168, 0, 1] :=
  ⟨b!"192.168.0.1/24", ⟨[192, 168, 0, 1], 24⟩, ⟨.inl rfl, by decide⟩,
    by
      rw [InetText, if_neg (by decide)]
      exact ⟨b!"192.168.0.1", .inl ⟨rfl, by decide +kernel⟩, by decide +kernel⟩,
    by decide +kernel, rfl⟩

/-- **C77**, a case: an inet without a prefix cannot be written back. -/
theorem C77_not_inet_back :
    inetToNet { ip := none, mask := none } (some b!"10.0.0.1") =
      .ok { ip := some (v4Prefix ++ [10, 0, 0, 1]), mask := none } ∧
    inetFromNet { ip := some (v4Prefix ++ [10, 0, 0, 1]), mask := none } = some b!"<nil>" ∧
    cidrToNet { ip := none, mask := none } (some b!"<nil>") = .err .net :=
  ⟨by decide +kernel, by decide +kernel, by decide +kernel⟩

/-- **C77**, a case: text that is no address is scanned as nil; a nil IP in an array is written as text that is
no address, whereas alone it is NULL. -/
theorem C77_not_inet_error :
    inetToIP (some [1, 2, 3, 4]) (some b!"10.0.0.0/8") = .ok none ∧
    inetToNet { ip := none, mask := none } (some b!"what") = .ok { ip := none, mask := none } ∧
    ipArrValue (some [none]) = some b!"{<nil>}" ∧ inetFromIP none = none :=
  ⟨by decide +kernel, by decide +kernel, by decide +kernel, rfl⟩

/-- **C77**, a case: texts of an IPv6 and an IPv4 address, the latter in both forms. -/
theorem C77_example :
    inetFromIP (some [0x20, 1, 0xd, 0xb8, 0, 0, 0, 0, 0, 0, 0, 0, 0, 0, 0, 1]) = some b!"2001:db8::1" ∧
    inetFromIP (some (v4Prefix ++ [10, 1, 2, 3])) = some b!"10.1.2.3" ∧
    inetFromIP (some [10, 1, 2, 3]) = some b!"10.1.2.3" ∧
    inetToIP none (some b!"10.1.2.3") = .ok (some (v4Prefix ++ [10, 1, 2, 3])) ∧
    inetArrToIPs none (some b!"{2001:db8::1,NULL,10.0.0.0/8,::ffff:10.1.2.3}") =
      .ok (some [some [0x20, 1, 0xd, 0xb8, 0, 0, 0, 0, 0, 0, 0, 0, 0, 0, 0, 1], none, none,
        some (v4Prefix ++ [10, 1, 2, 3])]) :=
  ⟨by decide +kernel, by decide +kernel, by decide +kernel, by decide +kernel, by decide +kernel⟩

/-- **C77**, a case: networks. -/
theorem C77_example_net :
    Canonical { ip := some [10, 0, 0, 0], mask := some [255, 128, 0, 0] } ⟨[10, 0, 0, 0], 9⟩ ∧
    Inet.Network ⟨[10, 0, 0, 0], 9⟩ ∧
    netArrValue (some [{ ip := some [10, 0, 0, 0], mask := some [255, 128, 0, 0] }]) = some b!"{10.0.0.0/9}" ∧
    cidrArrToNets none (some b!"{10.0.0.0/9,NULL}") = .err .net ∧
    inetArrToNets none (some b!"{10.0.0.0/9,NULL}") = .ok (some
      [{ ip := some [10, 0, 0, 0], mask := some [255, 128, 0, 0] }, { ip := none, mask := none }]) :=
  ⟨⟨rfl, ⟨_, rfl, rfl, by decide, by decide⟩, ⟨.inl rfl, by decide⟩, by decide⟩, ⟨20, by decide⟩,
    by decide +kernel, by decide +kernel, by decide +kernel⟩

/-- **C77**, cases: texts that are no addresses, and masks that are no prefixes or are too long. -/
theorem C77_example_bad :
    [b!"1.2.3", b!"1.2.3.4.5", b!"01.2.3.4", b!"1.2.3.256", b!"1..3.4", b!"1.2.3.4.", b!"", b!"1:2:3",
      b!"1:2:3:4:5:6:7::8", b!"1::2::3", b!"12345::", b!"::1:", b!"1:2:3:4:5:6:7:1.2.3.4",
      b!"::1%eth0", b!"::g"].all (fun t => inetToIP none (some t) = .ok none) = true ∧
    inetFromNet { ip := some [10, 0, 0, 0], mask := some [255, 96, 0, 0] } =
      some b!"10.0.0.0/ff600000" ∧
    inetFromNet { ip := some [10, 0, 0, 0], mask := some (List.replicate 12 255 ++ [255, 255, 0, 0]) } =
      some b!"10.0.0.0/16" ∧
    inetFromNet { ip := some (v4Prefix ++ [10, 0, 0, 0]), mask := some (List.replicate 13 255 ++ [128, 0, 0]) } =
      some b!"10.0.0.0/9" := by
  decide +kernel

end Verif.Pgsql
