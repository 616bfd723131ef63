import Verif.Pgsql.PropsNet2
/-
C77: inet, cidr and their arrays.
-/
namespace Verif.Pgsql

open Verif Verif.PgServer

/-- The address that an IP stands for: IPv4 addresses may be in 16 bytes. -/
def addrOf (ip : Raw) : Raw := if ip.length = 16 ∧ ip.take 12 = v4Prefix then ip.drop 12 else ip

theorem words_length (ip : Raw) (n : Nat) (h : ip.length = 2 * n) : (words ip).length = n := by
  induction n generalizing ip with
  | zero => obtain rfl := List.length_eq_zero_iff.1 h; rfl
  | succ n ih =>
    match ip, h with
    | a :: b :: r, h => rw [words, List.length_cons, ih r (by simp at h; omega)]

theorem words_lt (ip : Raw) : ∀ w ∈ words ip, w < 65536 := by
  induction ip using words.induct with
  | case1 a b r ih =>
    intro w hw
    rw [words] at hw
    rcases List.mem_cons.1 hw with rfl | hw
    · have := UInt8.toNat_lt a; have := UInt8.toNat_lt b; omega
    · exact ih w hw
  | case2 ip h =>
    intro w hw
    rw [words.eq_def] at hw
    split at hw
    · exact absurd rfl (h _ _ _)
    · cases hw

theorem words_back (ip : Raw) (n : Nat) (h : ip.length = 2 * n) :
    ((words ip).flatMap fun w => [UInt8.ofNat (w / 256), UInt8.ofNat (w % 256)]) = ip := by
  induction n generalizing ip with
  | zero => obtain rfl := List.length_eq_zero_iff.1 h; rfl
  | succ n ih =>
    match ip, h with
    | a :: b :: r, h =>
      have ha := UInt8.toNat_lt a
      have hb := UInt8.toNat_lt b
      rw [words, List.flatMap_cons, ih r (by simp at h; omega),
        show (a.toNat * 256 + b.toNat) / 256 = a.toNat by omega,
        show (a.toNat * 256 + b.toNat) % 256 = b.toNat by omega]
      simp

theorem v4Text_text (ip : Raw) (h : ip.length = 4) : V4Text (v4Text ip) ip := ⟨h, by rw [v4Text, sepBy_eq]⟩

theorem v6Text_text (ip : Raw) (h : ip.length = 16) : AddrText (v6Text ip) ip :=
  .inr ⟨words ip, v6Words_text _ (words_length ip 8 h) (words_lt ip), (words_back ip 8 h).symm⟩

theorem ipText_text (ip : Raw) (h : ip.length = 4 ∨ ip.length = 16) : AddrText (ipText ip) (addrOf ip) := by
  rw [ipText, if_neg (by omega), if_neg (by omega), to4, addrOf]
  by_cases h4 : ip.length = 4
  · rw [if_pos h4, if_neg (fun x => by omega)]
    exact .inl (v4Text_text ip h4)
  · rw [if_neg h4]
    have h6 : ip.length = 16 := by omega
    by_cases hp : ip.take 12 = v4Prefix
    · rw [if_pos ⟨h6, hp⟩, if_pos ⟨h6, hp⟩]
      exact .inl (v4Text_text _ (by rw [List.length_drop, h6]))
    · rw [if_neg (fun x => hp x.2), if_neg (fun x => hp x.2)]
      exact v6Text_text ip h6

/-- **C77** An IP of 4 or 16 bytes is written as a text of its address. -/
theorem C77_ip_text (ip : Raw) (h : ip.length = 4 ∨ ip.length = 16) :
    ∃ t, inetFromIP (some ip) = some t ∧ AddrText t (addrOf ip) := ⟨_, rfl, ipText_text ip h⟩

theorem parseIP_text {t : Bytes} {bs : List UInt8} (h : AddrText t bs) : parseIP t = some (as16 bs) := by
  rw [parseIP, parseAddr_text h]; rfl

theorem as16_addrOf (ip : Raw) : as16 (addrOf ip) = as16 ip := by
  rw [addrOf]
  split
  · rename_i hc
    rw [as16, if_pos (by simp [hc.1]), as16, if_neg (by omega), ← hc.2, List.take_append_drop]
  · rfl

/-- **C77** It is scanned as the same address in 16 bytes. -/
theorem C77_ip_round_trip (ip : Raw) (d : Option Raw) (h : ip.length = 4 ∨ ip.length = 16) :
    inetToIP d (inetFromIP (some ip)) = .ok (some (as16 ip)) := by
  rw [inetFromIP, Option.map_some, inetToIP, scanKeep, parseIP_text (ipText_text ip h), as16_addrOf ip]

/-- **C77** An IP of 16 bytes is scanned as it was written. -/
theorem C77_ip_exact (ip : Raw) (d : Option Raw) (h : ip.length = 16) :
    inetToIP d (inetFromIP (some ip)) = .ok (some ip) := by
  rw [C77_ip_round_trip ip d (.inr h), as16, if_neg (by omega)]

/-- **C77** The server's text of an inet is scanned as the IP exactly if the prefix is the whole address; other
values are scanned as nil, without an error. -/
theorem C77_ip_server (t : Bytes) (v : Inet) (d : Option Raw) (h : InetText t v) :
    inetToIP d (some t) = .ok (if v.bits = 8 * v.addr.length then some (as16 v.addr) else none) := by
  rw [InetText] at h
  rw [inetToIP, scanKeep]
  split at h
  · rename_i hb; rw [if_pos hb, parseIP_text h]
  · rename_i hb
    obtain ⟨a, -, rfl⟩ := h
    rw [if_neg hb, parseIP, parseAddr_bad (c := '/') (by decide) (by simp)]
    rfl

/-- **C77** NULL leaves the destination; nil is NULL. -/
theorem C77_ip_null (d : Option Raw) : inetToIP d none = .ok d ∧ inetFromIP none = none := ⟨rfl, rfl⟩

/-! ### Networks -/

/-- A network as Go's parser makes it: an address of 4 or 16 bytes with a mask of the same length, of ones
followed by zeros; the 16 bytes are no IPv4 address. -/
structure Canonical (n : IPNet) (v : Inet) : Prop where
  ip : n.ip = some v.addr
  mask : ∃ m, n.mask = some m ∧ m.length = v.addr.length ∧ PrefixMask m v.bits
  valid : v.Valid
  plain : addrOf v.addr = v.addr

theorem canonical_mask {n : IPNet} {v : Inet} (h : Canonical n v) :
    n.mask = some (cidrMask v.addr.length v.bits) := by
  obtain ⟨m, h1, h2, h3⟩ := h.mask
  rw [h1, ← h2, ← ((prefixMask_iff m v.bits).1 h3).2]

theorem to4_addr {a : Raw} (hp : addrOf a = a) :
    to4 a = if a.length = 4 then some a else none := by
  rw [to4]
  split
  · rfl
  · rw [if_neg]
    rintro ⟨h1, h2⟩
    rw [addrOf, if_pos ⟨h1, h2⟩] at hp
    have := congrArg List.length hp
    simp [h1] at this

theorem canonical_text {n : IPNet} {v : Inet} (h : Canonical n v) :
    n.text = ipText v.addr ++ b!"/" ++ Nat.toDigits 10 v.bits := by
  have hs := h.valid.size
  have hb := h.valid.bits
  have e : netAndMask (n.ip.getD []) (n.mask.getD []) = some (v.addr, cidrMask v.addr.length v.bits) := by
    rw [h.ip, canonical_mask h, Option.getD_some, Option.getD_some, netAndMask, to4_addr h.plain]
    rcases hs with hs | hs <;> simp [hs, cidrMask_length]
  rw [IPNet.text, e]
  simp only []
  rw [maskLen_cidrMask _ _ _ hb (by omega)]
  simp

/-- **C77** A network is written as a text of its address and prefix. -/
theorem C77_net_text (n : IPNet) (v : Inet) (h : Canonical n v) :
    ∃ t, inetFromNet n = some t ∧ cidrFromNet n = some t ∧ CidrText t v := by
  have ht := canonical_text h
  refine ⟨n.text, ?_, ?_, ipText v.addr, ?_, by rw [ht]; simp⟩
  · rw [inetFromNet, if_neg]; rw [h.ip]; simp
  · rw [cidrFromNet, if_neg]
    rw [h.ip, Option.getD_some]
    have := h.valid.size
    omega
  · have := ipText_text v.addr h.valid.size
    rwa [h.plain] at this

theorem parseCIDR_network {t : Bytes} {v : Inet} (h : CidrText t v) (hv : v.Valid) (hn : v.Network) :
    parseCIDR t = .ok { ip := some v.addr, mask := some (cidrMask v.addr.length v.bits) } := by
  rw [parseCIDR_text h hv]
  congr 3
  refine ipNum_inj (masked_length _ _) ?_
  rw [ipNum_masked _ _ hv.bits, Nat.div_mul_cancel hn]

/-- **C77** A network without bits behind the prefix is scanned as it was written. -/
theorem C77_net_round_trip (n : IPNet) (v : Inet) (d : IPNet) (h : Canonical n v) (hn : v.Network) :
    cidrToNet d (cidrFromNet n) = .ok n ∧ inetToNet d (inetFromNet n) = .ok n := by
  obtain ⟨t, e1, e2, ht⟩ := C77_net_text n v h
  have hp := parseCIDR_network ht h.valid hn
  have e : ({ ip := some v.addr, mask := some (cidrMask v.addr.length v.bits) } : IPNet) = n := by
    rw [← canonical_mask h, ← h.ip]
  rw [e] at hp
  rw [e1, e2, cidrToNet, scanKeep, inetToNet, scanKeep, inetElem, hp]
  exact ⟨rfl, rfl⟩

/-- **C77** The server's text of a cidr is scanned as the network. -/
theorem C77_cidr_server (t : Bytes) (v : Inet) (d : IPNet) (hv : v.Valid) (hn : v.Network) (h : CidrText t v) :
    ∃ m, cidrToNet d (some t) = .ok { ip := some v.addr, mask := some m } ∧ m.length = v.addr.length ∧
      PrefixMask m v.bits := by
  refine ⟨cidrMask v.addr.length v.bits, ?_, cidrMask_length _ _, ?_⟩
  · rw [cidrToNet, scanKeep, parseCIDR_network h hv hn]
  · rw [prefixMask_iff, cidrMask_length]
    exact ⟨hv.bits, rfl⟩

/-- **C77** The server's text of an inet whose prefix is not the whole address is scanned as its network: the
bits behind the prefix are lost. -/
theorem C77_inet_server (t : Bytes) (v : Inet) (d : IPNet) (hv : v.Valid) (hb : v.bits ≠ 8 * v.addr.length)
    (h : InetText t v) :
    ∃ a m, inetToNet d (some t) = .ok { ip := some a, mask := some m } ∧ m.length = v.addr.length ∧
      PrefixMask m v.bits ∧ a.length = v.addr.length ∧
      ipNum a = ipNum v.addr / 2 ^ (8 * v.addr.length - v.bits) * 2 ^ (8 * v.addr.length - v.bits) ∧
      (a = v.addr ↔ v.Network) := by
  rw [InetText, if_neg hb] at h
  refine ⟨_, cidrMask v.addr.length v.bits, ?_, cidrMask_length _ _, ?_, masked_length _ _, ipNum_masked _ _ hv.bits, ?_⟩
  · rw [inetToNet, scanKeep, inetElem, parseCIDR_text h hv]
  · rw [prefixMask_iff, cidrMask_length]
    exact ⟨hv.bits, rfl⟩
  · constructor
    · intro e
      have := ipNum_masked v.addr v.bits hv.bits
      rw [e] at this
      exact ⟨_, by rw [Nat.mul_comm]; exact this⟩
    · intro hn
      refine ipNum_inj (masked_length _ _) ?_
      rw [ipNum_masked _ _ hv.bits, Nat.div_mul_cancel hn]

theorem parseCIDR_none {t : Bytes} (h : '/' ∉ t) : parseCIDR t = .err .net := by rw [parseCIDR, if_neg h]

/-- **C77** The server's text of an inet whose prefix is the whole address is scanned without a mask, and such a
value is written as a text that is no address. -/
theorem C77_inet_server_addr (t : Bytes) (v : Inet) (d : IPNet) (hb : v.bits = 8 * v.addr.length) (h : InetText t v) :
    inetToNet d (some t) = .ok { ip := some (as16 v.addr), mask := none } ∧
    inetFromNet { ip := some (as16 v.addr), mask := none } = some b!"<nil>" ∧
    cidrFromNet { ip := some (as16 v.addr), mask := none } = some b!"<nil>" := by
  rw [InetText, if_pos hb] at h
  have hl : 0 < v.addr.length := by
    rcases h with h | ⟨ws, h, e⟩
    · rw [h.1]; decide
    · rw [e]
      have : 0 < ws.length := by
        cases h with
        | full _ hl => omega
        | short _ _ hl => simp; omega
      match ws, this with
      | w :: ws, _ => simp
  have ht : ({ ip := some (as16 v.addr), mask := none } : IPNet).text = b!"<nil>" := by
    rw [IPNet.text, Option.getD_some, Option.getD_none]
    have : netAndMask (as16 v.addr) [] = none := by
      rw [netAndMask]
      split <;> simp
    rw [this]
  refine ⟨?_, ?_, ?_⟩
  · rw [inetToNet, scanKeep, inetElem, parseCIDR_none (addrChars_free (addrText_chars h)).1, parseIP_text h]
  · rw [inetFromNet, if_neg (by simp), ht]
  · rw [cidrFromNet, if_neg, ht]
    rintro ⟨h1, -⟩
    rw [Option.getD_some, as16] at h1
    split at h1
    · simp [v4Prefix] at h1
    · omega

/-- **C77** NULL leaves the destination; the zero IPNet is NULL. -/
theorem C77_net_null (d : IPNet) : inetToNet d none = .ok d ∧ cidrToNet d none = .ok d ∧
    inetFromNet { ip := none, mask := none } = none ∧ cidrFromNet { ip := none, mask := none } = none :=
  ⟨rfl, rfl, rfl, rfl⟩

end Verif.Pgsql
