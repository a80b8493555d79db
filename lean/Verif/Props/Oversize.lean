import Verif.Spec.Oversize
import Verif.Props.Order
/-!
# C95: a data packet is taken whole or not at all
-/

namespace Utp
open M Spec

variable {E : Env}

/-- The datagram as it is seen through a buffer of 1520 bytes. -/
def cutShort (d : Datagram) : Datagram := { d with payload := d.seen }

theorem cut_bytes {d : Datagram} (h : d.Ok) (hf : d.front < 1520) : d.bytes.take 1520 = (cutShort d).bytes := by
  unfold Datagram.bytes cutShort Datagram.seen
  have h1 := h.headerLen
  unfold Datagram.front at *
  rw [List.take_append, List.take_append, List.take_of_length_le (by omega), List.take_of_length_le (by omega)]
  congr 3
  omega

theorem cut_ok {d : Datagram} (h : d.Ok) : (cutShort d).Ok := ⟨h.headerLen, h.version, h.typeCode, h.announced, h.extsOk⟩

theorem field_header {d : Datagram} (h : d.Ok) {i n : Nat} (hi : i + n ≤ 20) : field d.bytes i n = field d.header i n := by
  have := h.headerLen
  unfold field Datagram.bytes
  rw [List.drop_append_of_le_length (by omega), List.take_append_of_le_length (by simp; omega)]

theorem cut_pkt {s : Socket} {k : U16} {d : Datagram} {nr : Nat} (h : WireData s.senderId.toNat s.receiverId.toNat nr d) (hk : k.toNat = nr) :
    Packet.tryFrom (cutShort d).bytes = some (.ok ⟨(cutShort d).bytes⟩) ∧ DataPkt s k d.seen ⟨(cutShort d).bytes⟩ := by
  have hc := cut_ok h.ok
  obtain ⟨p, hp⟩ := (C01_accept_iff _).mpr ⟨_, hc, rfl⟩
  have hb := C02_lossless hp
  have hpe : p = ⟨(cutShort d).bytes⟩ := by cases p; simp_all
  subst hpe
  have hl : 20 ≤ (cutShort d).bytes.length := by
    have := h.ok.headerLen
    simp only [Datagram.bytes, cutShort, List.length_append]
    omega
  obtain ⟨f1, _, _, _, f5, _⟩ := C02_fields (p := ⟨(cutShort d).bytes⟩) hl
  dsimp only at f1 f5
  rw [field_header hc (by omega)] at f1 f5
  obtain ⟨⟨t, ht, hv⟩, _⟩ := C02_first_bytes hp
  have g0 : (cutShort d).bytes.getD 0 0 = d.header.getD 0 0 := by
    have := h.ok.headerLen
    simp only [Datagram.bytes, cutShort]
    simp [List.getD_eq_getElem?_getD, List.getElem?_append_left (show 0 < d.header.length by omega)]
  refine ⟨hp, ⟨?_, ?_, C03_payload hc, ?_⟩⟩
  · rw [ht]
    rw [g0, h.data] at hv
    cases t <;> simp_all [PacketType.toU8]
  · apply BitVec.eq_of_toNat_eq
    rw [f5, hk]
    exact h.number
  · rcases h.conn with h | h
    · exact .inl (BitVec.eq_of_toNat_eq (by rw [f1]; exact h))
    · exact .inr (BitVec.eq_of_toNat_eq (by rw [f1]; exact h))

theorem seen_ne {d : Datagram} (hf : d.front < 1520) (hp : d.payload ≠ []) : d.seen ≠ [] := by
  unfold Datagram.seen
  rw [ne_eq, List.take_eq_nil_iff]
  rintro (h | h)
  · omega
  · exact hp h

theorem NumberedFrom.tail {sid rid nr : Nat} {d : Datagram} {ds : List Datagram} (h : NumberedFrom sid rid nr (d :: ds)) : NumberedFrom sid rid (nr + 1) ds := by
  intro i x hx
  have := h (i + 1) x (by simpa using hx)
  rwa [show nr + (i + 1) = nr + 1 + i by omega] at this

theorem cut_stream {s : Socket} : ∀ {ds : List Datagram} {nr n : Nat} {k : U16}, NumberedFrom s.senderId.toNat s.receiverId.toNat nr ds → k.toNat = nr % 65536 → CarriesAll E n ds →
    InOrder s true k (ds.map fun d => ⟨(cutShort d).bytes⟩) (ds.map Datagram.seen) ∧ Brings E n (ds.map fun d => ⟨(cutShort d).bytes⟩)
  | [], _, _, _, _, _, _ => ⟨.done _ _, trivial⟩
  | d :: ds, nr, n, k, h, hk, hn => by
    obtain ⟨h1, h2, h3⟩ := h 0 d rfl
    obtain ⟨src, h4⟩ := hn 0 d rfl
    obtain ⟨g1, g2⟩ := cut_pkt h1 hk
    obtain ⟨i1, i2⟩ := cut_stream (n := n + 1) (k := k + 1) h.tail (by rw [BitVec.toNat_add, hk]; simp) (fun i x hx => by
      have := hn (i + 1) x (by simpa using hx)
      rwa [show n + (i + 1) = n + 1 + i by omega] at this)
    exact ⟨.next g2 (seen_ne h2 h3) i1, ⟨d.bytes, src, h4, by rw [cut_bytes h1.ok h2]; exact g1⟩, i2⟩

/-- What is read of data packets that arrive in order, of whatever size they are: of each one the payload among its first 1520 bytes, and then the next one.  (The peer got an
acknowledgement of each one, `C95_acknowledged`.) -/
theorem C95_read {w : World} {ds : List Datagram} (hok : ∀ n, E.snd n = .ok) {fuel : Nat} (hf : ds.length + 2 ≤ fuel) (hst : w.s.state = .connected) (hr : 0 < w.s.maxRetries.toNat)
    (h0 : w.s.pending = []) (hi : w.s.incoming = []) (ha : w.s.ackNr = w.s.lastDropped) (hd : NumberedFrom w.s.senderId.toNat w.s.receiverId.toNat (w.s.ackNr.toNat + 1) ds)
    (hn : CarriesAll E w.nNet ds) (lens : List Nat) (hl : ∀ n ∈ lens, 0 < n) (hlen : (ds.map Datagram.seen).flatten.length ≤ lens.length) :
    ∃ outs : List (Bytes × Addr), outs.length ≤ lens.length ∧
      (results E fuel (lens.map .recvFrom) w).take outs.length = outs.map (fun o => .ok (.bytes o.1 o.2)) ∧
      (∀ o ∈ outs, o.1 ≠ []) ∧ (outs.map Prod.fst).flatten = (ds.map Datagram.seen).flatten := by
  obtain ⟨h1, h2⟩ := cut_stream (k := w.s.ackNr + 1) hd (by rw [BitVec.toNat_add]; simp) hn
  exact C25_stream hok (by simpa using hf) hst hr h0 hi ha h1 h2 lens hl hlen

/-- **C95.**  Data packets that arrive in order are read whole.  Partial: none of them is longer than 1520 bytes. -/
theorem C95_partial {w : World} {ds : List Datagram} (hok : ∀ n, E.snd n = .ok) {fuel : Nat} (hf : ds.length + 2 ≤ fuel) (hst : w.s.state = .connected) (hr : 0 < w.s.maxRetries.toNat)
    (h0 : w.s.pending = []) (hi : w.s.incoming = []) (ha : w.s.ackNr = w.s.lastDropped) (hd : NumberedFrom w.s.senderId.toNat w.s.receiverId.toNat (w.s.ackNr.toNat + 1) ds)
    (hn : CarriesAll E w.nNet ds) (hsz : ∀ d ∈ ds, d.bytes.length ≤ 1520) (lens : List Nat) (hl : ∀ n ∈ lens, 0 < n) (hlen : (ds.map Datagram.payload).flatten.length ≤ lens.length) :
    ∃ outs : List (Bytes × Addr), outs.length ≤ lens.length ∧
      (results E fuel (lens.map .recvFrom) w).take outs.length = outs.map (fun o => .ok (.bytes o.1 o.2)) ∧
      (∀ o ∈ outs, o.1 ≠ []) ∧ (outs.map Prod.fst).flatten = (ds.map Datagram.payload).flatten := by
  have e : ds.map Datagram.seen = ds.map Datagram.payload := by
    refine List.map_congr_left fun d hd' => ?_
    obtain ⟨i, hi⟩ := List.mem_iff_getElem?.mp hd'
    have h1 := (hd i d hi).1.ok.headerLen
    have h2 := hsz d hd'
    simp only [Datagram.bytes, List.length_append] at h2
    unfold Datagram.seen Datagram.front
    exact List.take_of_length_le (by omega)
  rw [← e] at hlen ⊢
  exact C95_read hok hf hst hr h0 hi ha hd hn lens hl hlen

/-- Every data packet longer than 1520 bytes that comes next is acknowledged although its end is thrown away: one call of `recv` returns what is seen of it, the State packet sent
acknowledges its number, and the packet counts as read: with a large enough buffer nothing of it is kept. -/
theorem C95_acknowledged {w : World} {d : Datagram} (hok : ∀ n, E.snd n = .ok) (hst : w.s.state = .connected) (hr : 0 < w.s.maxRetries.toNat)
    (h0 : w.s.pending = []) (hi : w.s.incoming = []) (ha : w.s.ackNr = w.s.lastDropped) (hd : WireData w.s.senderId.toNat w.s.receiverId.toNat ((w.s.ackNr.toNat + 1) % 65536) d)
    (hfr : d.front < 1520) (hp : d.payload ≠ []) {src : Addr} (hn : E.net w.nNet = .dgram d.bytes src) (hlong : 1520 < d.bytes.length) {len : Nat} (hl : 1500 ≤ len) :
    ∃ w', (∀ fuel, recvFrom E (fuel + 2) len w = (.ok (d.seen, src), w')) ∧ d.seen.length < d.payload.length ∧ Answered w w' (w.s.ackNr + 1) ∧
      w'.s.pending = [] ∧ w'.s.incoming = [] ∧ w'.s.lastDropped = w.s.ackNr + 1 ∧ w'.s.ackNr = w.s.ackNr + 1 := by
  have hk : (w.s.ackNr + 1).toNat = (w.s.ackNr.toNat + 1) % 65536 := by rw [BitVec.toNat_add]; simp
  obtain ⟨g1, g2⟩ := cut_pkt (k := w.s.ackNr + 1) hd hk
  have h1 : w.s.ackNr = w.s.ackNr + 1 - 1 := by have : (1 : U16).toNat = 1 := rfl; bv_omega
  have hx : Expects w.s true (w.s.ackNr + 1) [] :=
    ⟨hst, hr, h0, fun _ => hi, fun _ => by rw [if_pos rfl, ← ha]; exact ⟨h1, h1⟩, fun h => absurd rfl h⟩
  obtain ⟨w', r1, r2, _, _, r5, _⟩ := recv_one hx g2 hn (by rw [cut_bytes hd.ok hfr]; exact g1) (hok _) len
  have hlen := hd.ok.headerLen
  have hs : d.seen.length ≤ 1500 := by
    unfold Datagram.seen Datagram.front
    rw [List.length_take]
    omega
  rw [List.drop_of_length_le (by omega)] at r2
  rw [List.take_of_length_le (by omega)] at r1
  have hf := r2.fresh rfl
  have h2 : w.s.ackNr + 1 + 1 - 1 = w.s.ackNr + 1 := by have : (1 : U16).toNat = 1 := rfl; bv_omega
  rw [if_pos rfl, h2] at hf
  refine ⟨w', fun fuel => ?_, ?_, r5, r2.pending, r2.empty rfl, hf.2, hf.1⟩
  · have hq : recvFrom E (fuel + 2) len w = recvFromLoop E (fuel + 2) len (fuel + 2) w := by
      refine recvFrom_quiet ?_ (by rw [hst]; simp)
      unfold flushIncoming
      msimp
      rw [if_neg (by simp [h0]), hi]
      rfl
    rw [hq, recvFromLoop]
    msimp
    rw [if_neg (by rw [hst]; simp), andThen_eq (r1 fuel)]
    msimp
    rw [if_neg (seen_ne hfr hp)]
  · simp only [Datagram.bytes, List.length_append] at hlong
    unfold Datagram.front at hfr
    unfold Datagram.seen Datagram.front
    rw [List.length_take]
    omega

section
open Sample

/-- A data packet with `n` bytes of payload. -/
def bulky (n : Nat) : Datagram := ⟨(dg .data 6 2 100 []), [], List.replicate n 7⟩

def bulkyEnv : Env := env [arr (bulky 1600).bytes, arr (dg .data 6 3 100 [9])]

theorem bulky_data {n : Nat} : WireData 5 6 2 (bulky n) := by
  have h : (bulky n).header = dg .data 6 2 100 [] := rfl
  refine ⟨⟨?_, ?_, ?_, ?_, by simp [bulky]⟩, ?_, ?_, .inr ?_⟩ <;> rw [h]
  all_goals first | decide | rfl

/-- `C95_acknowledged` for a packet with 1600 bytes of payload. -/
example : Reach bulkyEnv (server bulkyEnv) ∧ ∃ w', (∀ fuel, recvFrom bulkyEnv (fuel + 2) 1500 (server bulkyEnv) = (.ok ((bulky 1600).seen, peer), w')) ∧
    Answered (server bulkyEnv) w' 2 ∧ w'.s.pending = [] := by
  obtain ⟨w', h1, _, h3, h4, _⟩ := C95_acknowledged (E := bulkyEnv) (w := server bulkyEnv) (d := bulky 1600) (src := peer) (len := 1500) (fun _ => rfl) (by decide +kernel) (by decide +kernel)
    (by decide +kernel) (by decide +kernel) (by decide +kernel) bulky_data (by decide +kernel) (by decide +kernel) (by decide +kernel) (by decide +kernel) (by omega)
  exact ⟨reach_server 10 [] (by decide +kernel) (by decide +kernel), w', h1, h3, h4⟩

def roomyEnv : Env := env [arr (bulky 30).bytes]

/-- `C95_partial` for a packet with 30 bytes of payload. -/
example : Reach roomyEnv (server roomyEnv) ∧ ∃ outs : List (Bytes × Addr),
    (results roomyEnv 10 ((List.replicate 30 (7 : Nat)).map .recvFrom) (server roomyEnv)).take outs.length = outs.map (fun o => .ok (.bytes o.1 o.2)) ∧
    (outs.map Prod.fst).flatten = List.replicate 30 7 := by
  have one : ∀ {P : Nat → Datagram → Prop}, P 0 (bulky 30) → ∀ i d, [bulky 30][i]? = some d → P i d := by
    intro P h i d hd
    rcases i with _ | i
    · simp only [List.getElem?_cons_zero, Option.some.injEq] at hd; rw [← hd]; exact h
    · simp at hd
  obtain ⟨outs, _, h2, _, h4⟩ := C95_partial (E := roomyEnv) (w := server roomyEnv) (ds := [bulky 30]) (fuel := 10) (fun _ => rfl) (by simp) (by decide +kernel) (by decide +kernel)
    (by decide +kernel) (by decide +kernel) (by decide +kernel) (one ⟨bulky_data, by decide +kernel, by decide +kernel⟩) (one ⟨peer, by decide +kernel⟩)
    (by simp only [List.mem_singleton, forall_eq]; decide +kernel) (List.replicate 30 7) (by simp) (by simp [bulky])
  exact ⟨reach_server 10 [] (by decide +kernel) (by decide +kernel), outs, h2, by rw [h4]; simp [bulky]⟩

/-- C95 is false: of a packet with 1600 bytes of payload 1500 bytes are read, it is acknowledged, and the next read returns the next packet. -/
theorem C95_counterexample : Reach bulkyEnv (server bulkyEnv) ∧
    results bulkyEnv 10 [.recvFrom 2000, .recvFrom 2000] (server bulkyEnv) = [.ok (.bytes (List.replicate 1500 7) peer), .ok (.bytes [9] peer)] :=
  ⟨reach_server 10 [] (by decide +kernel) (by decide +kernel), by decide +kernel⟩

end

end Utp
