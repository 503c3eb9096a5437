import Verif.Lemmas.Frag
import Verif.Props.CodecIp4
import Verif.Props.CodecIp6
import Mathlib.Tactic.Tauto
/-! C29-C32: reassembly. -/
namespace Verif
open Spec (Piece IsFragmentation deliveries)
open Frag (Flow defrag)

/-! ### Histories -/

/-- A fragment handed to reassembly: the parsed packet `pkt` (of type `α`) and the two clock readings of the call. -/
structure FragRx (α : Type) where
  t₀ : Int
  t₁ : Int
  pkt : α

/-- The clock never goes back during the calls. -/
def ClockMonotone {α : Type} (evs : List (FragRx α)) : Prop :=
  (evs.flatMap (fun e => [e.t₀, e.t₁])).Pairwise (· ≤ ·)

/-- Every call of `step` along a history, with its result (whatever it is, the next call sees the state left behind). -/
def fragTrace {S α : Type} (step : S → Int → Int → α → S × Py (Option Bytes)) : S → List (FragRx α) →
    List (FragRx α × Py (Option Bytes))
  | _, [] => []
  | s, e :: es => (e, (step s e.t₀ e.t₁ e.pkt).2) :: fragTrace step (step s e.t₀ e.t₁ e.pkt).1 es

theorem fragTrace_deliveries {K α : Type} [DecidableEq K] {header : α → Bytes} {key : α → K} {piece : α → Piece}
    {finish : α → Bytes → Bytes → Py Bytes} {fin : Bytes → Bytes → Py Bytes} {data : Bytes} {room : Nat} {fs : List Piece}
    (hF : IsFragmentation data room fs) (hne : data ≠ []) (k : K) (evs : List (FragRx α)) (flows : Dict K Flow)
    (got : List (Piece × α)) (hg : ∀ x ∈ got, x.1 ∈ fs) (hT : Frag.TracksAt header flows k got)
    (hp : ∀ e ∈ flows, ∀ ev ∈ evs, e.2.timestamp ≤ ev.t₀) (hclock : ClockMonotone evs)
    (hpc : ∀ e ∈ evs, key e.pkt = k → piece e.pkt ∈ fs ∧ finish e.pkt = fin) :
    ((fragTrace (fun (s : Dict K Flow) t₀ t₁ a => defrag (finish a) s t₀ t₁ (key a) (header a) (piece a).offset
        (piece a).mf (piece a).data) flows evs).filter (fun r => key r.1.pkt = k)).map (·.2) =
      (deliveries fs got ((evs.filter (fun e => key e.pkt = k)).map (fun e => (piece e.pkt, e.pkt)))).map
        (fun o => match o with | none => .ok none | some h₀ => (fin (header h₀) data).map some) := by
  induction evs generalizing flows got with
  | nil => rfl
  | cons e es ih =>
    have hpast : Frag.Past flows e.t₀ := fun x hx => hp x hx e (by simp)
    have hc : e.t₀ ≤ e.t₁ ∧ (∀ ev ∈ es, e.t₁ ≤ ev.t₀) ∧ ClockMonotone es := by
      rw [ClockMonotone, List.flatMap_cons, List.pairwise_append] at hclock
      obtain ⟨h1, h2, h3⟩ := hclock
      refine ⟨by simpa using h1, ?_, h2⟩
      intro ev hev
      exact h3 _ (by simp) _ (List.mem_flatMap.mpr ⟨ev, hev, by simp⟩)
    obtain ⟨ht, hnext, hes⟩ := hc
    have hpast' : ∀ hd off mf d (fi : Bytes → Bytes → Py Bytes) kk,
        ∀ x ∈ (defrag fi flows e.t₀ e.t₁ kk hd off mf d).1, ∀ ev ∈ es, x.2.timestamp ≤ ev.t₀ :=
      fun hd off mf d fi kk x hx ev hev => Int.le_trans (Frag.defrag_past fi hpast ht kk hd off mf d x hx) (hnext ev hev)
    rw [fragTrace]
    by_cases hk : key e.pkt = k
    · obtain ⟨hpf, hfin⟩ := hpc e (by simp) hk
      have hstep := Frag.defrag_same hF hne fin hg hT e.t₁ hpast (piece e.pkt, e.pkt) hpf
      rw [List.filter_cons_of_pos (by simpa using hk), List.filter_cons_of_pos (by simpa using hk), List.map_cons,
        List.map_cons, deliveries, hfin, hk]
      simp only at hstep
      split at hstep
      · rename_i hall
        obtain ⟨h1, h₀, h2, h3⟩ := hstep
        rw [if_pos hall, List.map_cons, h3, ih _ [] (by simp) h1 (hpast' _ _ _ _ _ _) hes (fun ev hev => hpc ev (by simp [hev]))]
        rw [h2]
      · rename_i hall
        obtain ⟨h1, h3⟩ := hstep
        rw [if_neg hall, List.map_cons, h3, ih _ _ ?_ h1 (hpast' _ _ _ _ _ _) hes (fun ev hev => hpc ev (by simp [hev]))]
        intro x hx
        rcases List.mem_append.mp hx with hx | hx
        · exact hg x hx
        · rw [List.mem_singleton.mp hx]; exact hpf
    · rw [List.filter_cons_of_neg (by simpa using hk), List.filter_cons_of_neg (by simpa using hk)]
      refine ih _ got hg ?_ (hpast' _ _ _ _ _ _) hes (fun ev hev => hpc ev (by simp [hev]))
      rw [Frag.TracksAt, Frag.defrag_other _ _ hpast (fun h => hk h.symm)]
      exact hT

/-- What is delivered comes from an arrival. -/
theorem deliveries_mem {α : Type} {fs : List Piece} {h₀ : α} (l got : List (Piece × α)) (h : some h₀ ∈ deliveries fs got l) :
    ∃ x ∈ got ++ l, x.2 = h₀ := by
  induction l generalizing got with
  | nil => simp [deliveries] at h
  | cons x l ih =>
    rw [deliveries] at h
    split at h
    · rcases List.mem_cons.mp h with h | h
      · obtain ⟨y, hy, hy'⟩ := Option.map_eq_some_iff.mp h.symm
        have := List.mem_of_head? hy
        exact ⟨y, by simp at this ⊢; tauto, hy'⟩
      · obtain ⟨y, hy, hy'⟩ := ih [] h
        exact ⟨y, by simp at hy ⊢; tauto, hy'⟩
    · rcases List.mem_cons.mp h with h | h
      · cases h
      · obtain ⟨y, hy, hy'⟩ := ih _ h
        exact ⟨y, by simp at hy ⊢; tauto, hy'⟩

/-- For the specification itself: when each piece arrives once, in any order, only the last arrival delivers. -/
theorem deliveries_perm {α : Type} {fs : List Piece} (hn : fs.Nodup) (xs got : List (Piece × α)) (x : Piece × α)
    (h : ((got ++ (xs ++ [x])).map (·.1)).Perm fs) :
    deliveries fs got (xs ++ [x]) = List.replicate xs.length none ++ [(got ++ xs ++ [x]).head?.map (·.2)] := by
  induction xs generalizing got with
  | nil =>
    rw [List.nil_append] at h ⊢
    rw [deliveries, if_pos (fun p hp => h.mem_iff.mpr hp)]
    simp [deliveries]
  | cons y ys ih =>
    have hnot : ¬ ∀ p ∈ fs, p ∈ (got ++ [y]).map (·.1) := by
      intro hall
      have hx : x.1 ∈ (got ++ [y]).map (·.1) := hall _ (h.mem_iff.mp (by simp))
      have hnd := h.nodup_iff.mpr hn
      rw [show got ++ (y :: ys ++ [x]) = (got ++ [y]) ++ (ys ++ [x]) by simp, List.map_append, List.nodup_append] at hnd
      exact hnd.2.2 _ hx _ (List.mem_map_of_mem (a := x) (by simp)) rfl
    rw [List.cons_append, deliveries, if_neg hnot, ih (got ++ [y]) (by simpa using h)]
    simp [List.replicate_succ]

theorem IsFragmentation_nodup {data : Bytes} {room : Nat} {fs : List Piece} (h : IsFragmentation data room fs) : fs.Nodup := by
  have := (Frag.items_chain h).sorted
  rw [Frag.items, List.pairwise_map] at this
  exact this.imp (fun {a b} hab e => by rw [e] at hab; exact Nat.lt_irrefl _ hab)

/-! ### IPv4 -/

/-- The packet has come out of the IPv4 parser. -/
def Ip4.Parsed (h : Ip4.Hdr) : Prop := ∃ f, Ip4.parse f = .ok none ∧ Ip4.read f = .ok h

theorem setIdx_skip {k i x : Nat} {b : Bytes} {v : UInt8} (h : k ≤ i) :
    setIdx (bePack k x ++ b) i v = (setIdx b (i - k) v).map (bePack k x ++ ·) := by
  rw [setIdx, setIdx]
  by_cases hi : i - k < b.length
  · rw [if_pos (by simp; omega), if_pos hi, List.set_append_right _ _ (by simpa using h)]
    simp [Except.map]
  · rw [if_neg (by simp; omega), if_neg hi]; rfl

theorem setIdx_here {x : Nat} {b : Bytes} {v : UInt8} : setIdx (bePack 1 x ++ b) 0 v = .ok (bePack 1 v.toNat ++ b) := by
  rw [setIdx, if_pos (by simp; omega)]
  simp [bePack]

/-- The header a whole packet gets, in terms of the fields of the fragment it is made from. -/
def Ip4.Hdr.wholeTx (h : Ip4.Hdr) : Ip4.Tx :=
  { src := h.src, dst := h.dst, ttl := h.ttl, dscp := h.dscp, ecn := h.ecn, id := h.id, df := false, mf := false,
    offset := 0, options := [], proto := h.proto }

theorem finishIp4_ok (h : Ip4.Hdr) (hp : Ip4.Parsed h) (data : Bytes) (hd : data.length ≤ 65515) :
    h.wholeTx.Fits data.length ∧ h.wholeTx.Sane ∧
    Frag.finishIp4 h.headerCopy data = .ok (Ip4.headerWith h.wholeTx (20 + data.length)
      (inetCksum (Ip4.headerWith h.wholeTx (20 + data.length) 0)) ++ data) := by
  obtain ⟨f, hf, hr⟩ := hp
  obtain ⟨r, hr', -, -, r1, r2, r3, -, -, s1, s2, s3, -⟩ := C26_ip4_accepted_partial f hf
  rw [hr] at hr'
  cases hr'
  have hl : 20 ≤ f.length := by omega
  obtain ⟨b0, i0, -, e0⟩ := idx_ex (f := f) (i := 0) (by omega)
  obtain ⟨b1, i1, l1, e1⟩ := idx_ex (f := f) (i := 1) (by omega)
  obtain ⟨pl, i2, -, e2⟩ := u16_ex (f := f) (i := 2) (by omega)
  obtain ⟨id, i4, l4, e4⟩ := u16_ex (f := f) (i := 4) (by omega)
  obtain ⟨b6, i6, -, e6⟩ := idx_ex (f := f) (i := 6) (by omega)
  obtain ⟨b7, i7, -, e7⟩ := idx_ex (f := f) (i := 7) (by omega)
  obtain ⟨ttl, i8, l8, e8⟩ := idx_ex (f := f) (i := 8) (by omega)
  obtain ⟨pr, i9, l9, e9⟩ := idx_ex (f := f) (i := 9) (by omega)
  obtain ⟨c0, i10, -, e10⟩ := idx_ex (f := f) (i := 10) (by omega)
  obtain ⟨c1, i11, -, e11⟩ := idx_ex (f := f) (i := 11) (by omega)
  obtain ⟨s, i12, e12⟩ := ip4_ok (f := f) (i := 12) (j := 16) rfl (by omega)
  obtain ⟨d, i16, e16⟩ := ip4_ok (f := f) (i := 16) (j := 20) rfl (by omega)
  have hcopy : f.take 20 = bePack 1 b0 ++ (bePack 1 b1 ++ (bePack 2 pl ++ (bePack 2 id ++ (bePack 1 b6 ++ (bePack 1 b7 ++
      (bePack 1 ttl ++ (bePack 1 pr ++ (bePack 1 c0 ++ (bePack 1 c1 ++ (bePack 4 s.int ++ bePack 4 d.int)))))))))) := by
    rw [e0, e1, e2, e4, e6, e7, e8, e9, e10, e11, ← Ip4Address.toBytes_eq, ← Ip4Address.toBytes_eq, e12, e16]
    simp only [slice_append_slice, Nat.le_add_left, Nat.reduceLeDiff, Nat.reduceAdd, Nat.zero_add]
    rfl
  have hfields : h.headerCopy = f.take 20 ∧ h.dscp = (b1 &&& 0b11111100) >>> 2 ∧ h.ecn = b1 &&& 3 ∧ h.id = id ∧
      h.ttl = ttl ∧ h.proto = pr ∧ h.src = s ∧ h.dst = d := by
    obtain ⟨ve, hn, dscp, ecn, plen, id', df, mf, off, ttl', proto, src, dst, k1, k2, k3, k4, k5, k6, k7, k8, k9, k10, k11,
      k12, k13, -⟩ := Ip4.cut f hl
    rw [Ip4.read] at hr
    cases ho : Ip4.options f with
    | error e => simp [k1, k2, k3, k4, k5, k6, k7, k8, k9, k10, k11, k12, k13, ho] at hr
    | ok o =>
    cases hq : Ip4.pshdrSum src dst proto (plen - hn) with
    | error e => simp [k1, k2, k3, k4, k5, k6, k7, k8, k9, k10, k11, k12, k13, ho, hq] at hr
    | ok q =>
    simp only [k1, k2, k3, k4, k5, k6, k7, k8, k9, k10, k11, k12, k13, ho, hq, py_ok_bind, py_pure, Except.ok.injEq] at hr
    subst hr
    simp only [Ip4.dscp, Ip4.ecn, Ip4.id, Ip4.ttl, Ip4.proto, Ip4.src, Ip4.dst, i1, i4, i8, i9, i12, i16, py_ok_bind, py_pure,
      Except.ok.injEq] at k3 k4 k6 k10 k11 k12 k13
    exact ⟨rfl, k3.symm, k4.symm, k6.symm, k10.symm, k11.symm, k12.symm, k13.symm⟩
  obtain ⟨f0, f1, f2, f3, f4, f5, f6, f7⟩ := hfields
  have hb1 : b1 = h.dscp * 4 + h.ecn := by
    rw [f1, f2, and_3, Nat.shiftRight_and_distrib, Nat.shiftRight_eq_div_pow, show (0b11111100 >>> 2 : Nat) = 0x3F from rfl,
      and_3F]
    omega
  have hdscp : h.dscp ≤ 63 := by omega
  have hecn : h.ecn ≤ 3 := by rw [f2, and_3]; omega
  refine ⟨⟨by show h.ttl ≤ 255; omega, hdscp, hecn, by show h.id < 65536; omega, by show h.proto < 256; omega,
    by simp [Ip4.Hdr.wholeTx], by simp [Ip4.Hdr.wholeTx], by simp [Ip4.Hdr.wholeTx]; omega, by simp [Ip4.Hdr.wholeTx],
    by simp [Ip4.Hdr.wholeTx]⟩, ⟨s1, s3, s2, by simp [Ip4.Hdr.wholeTx]⟩, ?_⟩
  have h0 : Ip4.headerWith h.wholeTx (20 + data.length) 0 = bePack 1 69 ++ (bePack 1 b1 ++ (bePack 2 (20 + data.length) ++
      (bePack 2 id ++ (bePack 1 0 ++ (bePack 1 0 ++
      (bePack 1 ttl ++ (bePack 1 pr ++ (bePack 1 0 ++ (bePack 1 0 ++ (bePack 4 s.int ++ bePack 4 d.int)))))))))) := by
    rw [Ip4.headerWith, hb1, ← f3, ← f4, ← f5, ← f6, ← f7]
    simp [Ip4.Hdr.wholeTx, Ip4.Tx.hlen, Ip4.rawOptions, codec, bePack]
  have hck : inetCksum (Ip4.headerWith h.wholeTx (20 + data.length) 0) < 65536 := inetCksum_lt _ _
  rw [Frag.finishIp4, f0, hcopy, setIdx_here, py_ok_bind, packIntoH_ok (by omega) (by simp [codec])]
  simp only [codec, take_skip, drop_skip, setIdx_skip, setIdx_here, Nat.reduceLeDiff, Nat.reduceSub, Nat.reduceAdd, Except.map,
    UInt8.reduceToNat, Nat.le_refl, Nat.sub_self, List.nil_append]
  rw [← h0, packIntoH_ok hck (by rw [Ip4.headerWith_length]; simp [Ip4.Hdr.wholeTx, Ip4.Tx.hlen, Ip4.rawOptions])]
  generalize inetCksum (Ip4.headerWith h.wholeTx (20 + data.length) 0) = ck
  simp [Ip4.headerWith, codec]


/-- The fragment as a piece. -/
def Ip4.Hdr.piece (h : Ip4.Hdr) : Piece := ⟨h.offset, h.mf, h.dataCopy⟩

/-- The whole packet `w` made of `data` under the header fields of the fragment `h`: the parser accepts it and reads back the
fragment's addresses, protocol, TTL, DSCP and ECN, an unfragmented packet, and `data`. -/
def Ip4.Whole (h : Ip4.Hdr) (data w : Bytes) : Prop :=
  Ip4.parse w = .ok none ∧ ∃ r, Ip4.read w = .ok r ∧ r.src = h.src ∧ r.dst = h.dst ∧ r.proto = h.proto ∧ r.ttl = h.ttl ∧
    r.dscp = h.dscp ∧ r.ecn = h.ecn ∧ r.id = h.id ∧ r.mf = false ∧ r.offset = 0 ∧ r.dlen = data.length ∧ r.rest = data ∧
    r.dataCopy = data ∧ Ip4.pshdrSum h.src h.dst h.proto data.length = .ok r.pshdrSum

/-- C29: take a datagram of at most 65515 bytes, cut into pieces in any way, and any history of fragments given to
reassembly, of this and of any other datagrams (of those, anything at all), under a clock that does not go back.  If each of
the fragments with this datagram's addresses and identification is one of the pieces - in any order, any number of times -
then the calls answer just as the specification `deliveries` says: nothing, except exactly when the last missing piece has
arrived, the whole packet: the original payload under the header of the first of its fragments to arrive. -/
theorem C29_ip4_reassembly {data : Bytes} {room : Nat} {fs : List Piece} (hF : IsFragmentation data room fs)
    (hne : data ≠ []) (hlen : data.length ≤ 65515) (k : Frag.Key4) (evs : List (FragRx Ip4.Hdr))
    (flows : Dict Frag.Key4 Flow) (hnew : flows.get? k = none) (hp : ∀ e ∈ flows, ∀ ev ∈ evs, e.2.timestamp ≤ ev.t₀)
    (hclock : ClockMonotone evs) (hparsed : ∀ e ∈ evs, Ip4.Parsed e.pkt)
    (hpc : ∀ e ∈ evs, (e.pkt.src, e.pkt.dst, e.pkt.id) = k → e.pkt.piece ∈ fs) :
    ∃ whole : Ip4.Hdr → Bytes, (∀ e ∈ evs, Ip4.Whole e.pkt data (whole e.pkt)) ∧
      ((fragTrace Frag.defragIp4 flows evs).filter (fun r => (r.1.pkt.src, r.1.pkt.dst, r.1.pkt.id) = k)).map (·.2) =
        (deliveries fs [] ((evs.filter (fun e => (e.pkt.src, e.pkt.dst, e.pkt.id) = k)).map
          (fun e => (e.pkt.piece, e.pkt)))).map (fun o => .ok (o.map whole)) := by
  obtain ⟨whole, hw⟩ : ∃ whole : Ip4.Hdr → Bytes, whole = fun h => Ip4.headerWith h.wholeTx (20 + data.length)
      (inetCksum (Ip4.headerWith h.wholeTx (20 + data.length) 0)) ++ data := ⟨_, rfl⟩
  refine ⟨whole, ?_, ?_⟩
  · intro e he
    obtain ⟨h1, h2, -⟩ := finishIp4_ok e.pkt (hparsed e he) data hlen
    have hps := Ip4.pshdr_ok e.pkt.src e.pkt.dst e.pkt.proto data.length h1.2.2.2.2.1 (by omega)
    have hh : e.pkt.wholeTx.hlen = 20 := by simp [Ip4.Hdr.wholeTx, Ip4.Tx.hlen, Ip4.rawOptions]
    have hv := Ip4.header_verifies e.pkt.wholeTx (20 + data.length) rfl
    have := Ip4.core e.pkt.wholeTx data [] _ _ h1 h2 (by rw [hh]; exact hv) hps
    simp only [List.append_nil, hh] at this
    rw [hw]
    exact ⟨this.1, _, this.2, rfl, rfl, rfl, rfl, rfl, rfl, rfl, rfl, rfl, rfl, rfl, rfl, hps⟩
  · have h := fragTrace_deliveries (header := Ip4.Hdr.headerCopy) (key := fun p : Ip4.Hdr => (p.src, p.dst, p.id))
      (piece := Ip4.Hdr.piece) (finish := fun _ => Frag.finishIp4) (fin := Frag.finishIp4) hF hne k evs flows [] (by simp)
      (by rw [Frag.TracksAt, hnew]) hp hclock (fun e he hk => ⟨hpc e he hk, rfl⟩)
    have h' := h
    rw [show (fun (s : Dict Frag.Key4 Flow) t₀ t₁ (a : Ip4.Hdr) => defrag Frag.finishIp4 s t₀ t₁ (a.src, a.dst, a.id) a.headerCopy
      a.piece.offset a.piece.mf a.piece.data) = Frag.defragIp4 from rfl] at h'
    rw [h']
    refine List.map_congr_left ?_
    intro o ho
    cases o with
    | none => rfl
    | some h₀ =>
      have : ∃ e ∈ evs, e.pkt = h₀ := by
        obtain ⟨x, hx, hx'⟩ := deliveries_mem _ _ ho
        rw [List.nil_append] at hx
        obtain ⟨e, he, rfl⟩ := List.mem_map.mp hx
        exact ⟨e, (List.mem_filter.mp he).1, hx'⟩
      obtain ⟨e, he, rfl⟩ := this
      obtain ⟨-, -, h3⟩ := finishIp4_ok e.pkt (hparsed e he) data hlen
      simp only [h3, hw]
      rfl


/-- C29, for one datagram whose pieces arrive once each, in any order, among fragments of other datagrams: every call but the
last for this datagram answers nothing and the last one answers the whole packet. -/
theorem C29_ip4_any_order {data : Bytes} {room : Nat} {fs : List Piece} (hF : IsFragmentation data room fs)
    (hne : data ≠ []) (hlen : data.length ≤ 65515) (k : Frag.Key4) (evs : List (FragRx Ip4.Hdr))
    (flows : Dict Frag.Key4 Flow) (hnew : flows.get? k = none) (hp : ∀ e ∈ flows, ∀ ev ∈ evs, e.2.timestamp ≤ ev.t₀)
    (hclock : ClockMonotone evs) (hparsed : ∀ e ∈ evs, Ip4.Parsed e.pkt)
    (hperm : ((evs.filter (fun e => (e.pkt.src, e.pkt.dst, e.pkt.id) = k)).map (fun e => e.pkt.piece)).Perm fs) :
    ∃ e ∈ evs, (e.pkt.src, e.pkt.dst, e.pkt.id) = k ∧ ∃ w, Ip4.Whole e.pkt data w ∧
      ((fragTrace Frag.defragIp4 flows evs).filter (fun r => (r.1.pkt.src, r.1.pkt.dst, r.1.pkt.id) = k)).map (·.2) =
        List.replicate (fs.length - 1) (.ok none) ++ [.ok (some w)] := by
  obtain ⟨whole, h1, h2⟩ := C29_ip4_reassembly hF hne hlen k evs flows hnew hp hclock hparsed (by
    intro e he hk
    exact hperm.mem_iff.mp (List.mem_map.mpr ⟨e, List.mem_filter.mpr ⟨he, by simpa using hk⟩, rfl⟩))
  have hfs : fs ≠ [] := by rintro rfl; exact hne (by rw [← hF.concat]; rfl)
  obtain ⟨L, hL⟩ : ∃ L, L = (evs.filter (fun e => (e.pkt.src, e.pkt.dst, e.pkt.id) = k)).map
          (fun e => (e.pkt.piece, e.pkt)) := ⟨_, rfl⟩
  have hmap : L.map (·.1) = (evs.filter (fun e => (e.pkt.src, e.pkt.dst, e.pkt.id) = k)).map (fun e => e.pkt.piece) := by
    rw [hL, List.map_map]; rfl
  have hlenL : L.length = fs.length := by rw [← hperm.length_eq, ← hmap, List.length_map]
  have hLne : L ≠ [] := by
    rintro rfl
    simp at hlenL
    exact hfs (List.length_eq_zero_iff.mp hlenL.symm)
  rw [← hL] at h2
  rw [← hmap] at hperm
  have hlast := List.dropLast_concat_getLast hLne
  rw [← hlast, deliveries_perm (IsFragmentation_nodup hF) _ [] _ (by rw [List.nil_append, hlast]; exact hperm),
    List.nil_append, hlast] at h2
  obtain ⟨x, L', rfl⟩ := List.exists_cons_of_ne_nil hLne
  have hx : x ∈ (evs.filter (fun e => (e.pkt.src, e.pkt.dst, e.pkt.id) = k)).map (fun e => (e.pkt.piece, e.pkt)) := by
    rw [← hL]; simp
  obtain ⟨e, he, rfl⟩ := List.mem_map.mp hx
  obtain ⟨he1, he2⟩ := List.mem_filter.mp he
  refine ⟨e, he1, by simpa using he2, whole e.pkt, h1 e he1, ?_⟩
  rw [h2]
  simp only [List.length_dropLast, hlenL, List.map_append, List.map_replicate, List.map_cons, List.map_nil,
    List.head?_cons, Option.map_some]
  rfl

/-! ### IPv6 -/

/-- The packet and its fragment header have come out of the parsers. -/
def Ip6.ParsedFrag (p : Ip6.Hdr × Ip6Frag.Hdr) : Prop :=
  ∃ f, Ip6.parse f = .ok none ∧ Ip6.read f = .ok p.1 ∧ Ip6Frag.parse p.1.rest = .ok none ∧
    Ip6Frag.read p.1.rest p.1.dlen = .ok p.2

/-- The fragment as a piece. -/
def Ip6Frag.Hdr.piece (h : Ip6Frag.Hdr) : Piece := ⟨h.offset, h.mf, h.dataCopy⟩

/-- The whole packet `w` made of `data`, with next header `next`, under the header fields of the fragment `h`. -/
def Ip6.Whole (h : Ip6.Hdr) (next : Nat) (data w : Bytes) : Prop :=
  Ip6.parse w = .ok none ∧ ∃ r, Ip6.read w = .ok r ∧ r.src = h.src ∧ r.dst = h.dst ∧ r.next = next ∧ r.hop = h.hop ∧
    r.dscp = h.dscp ∧ r.ecn = h.ecn ∧ r.flow = h.flow ∧ r.dlen = data.length ∧ r.rest = data ∧
    Ip6.pshdrSum h.src h.dst data.length next = .ok r.pshdrSum

theorem finishIp6_ok (p : Ip6.Hdr × Ip6Frag.Hdr) (hp : Ip6.ParsedFrag p) (next : Nat) (hn : next < 256) (data : Bytes)
    (hd : data.length < 65536) :
    ∃ w, Frag.finishIp6 next p.1.headerCopy data = .ok w ∧ Ip6.Whole p.1 next data w := by
  obtain ⟨h, x⟩ := p
  obtain ⟨f, hf, hr, -⟩ := hp
  simp only at hf hr ⊢
  obtain ⟨r, hr', hl, r1, r2, r3, s1, -⟩ := C26_ip6_accepted f hf
  rw [hr] at hr'
  cases hr'
  obtain ⟨b0, i0, l0, e0⟩ := idx_ex (f := f) (i := 0) (by omega)
  obtain ⟨b1, i1, l1, e1⟩ := idx_ex (f := f) (i := 1) (by omega)
  obtain ⟨b2, i2, l2, e2⟩ := idx_ex (f := f) (i := 2) (by omega)
  obtain ⟨b3, i3, l3, e3⟩ := idx_ex (f := f) (i := 3) (by omega)
  obtain ⟨pl, i4, l4, e4⟩ := u16_ex (f := f) (i := 4) (by omega)
  obtain ⟨nx, i6, l6, e6⟩ := idx_ex (f := f) (i := 6) (by omega)
  obtain ⟨hop, i7, l7, e7⟩ := idx_ex (f := f) (i := 7) (by omega)
  obtain ⟨s, i8, e8⟩ := ip6_ok (f := f) (i := 8) (j := 24) rfl (by omega)
  obtain ⟨d, i24, e24⟩ := ip6_ok (f := f) (i := 24) (j := 40) rfl (by omega)
  have hcopy : f.take 40 = bePack 1 b0 ++ (bePack 1 b1 ++ (bePack 1 b2 ++ (bePack 1 b3 ++ (bePack 2 pl ++ (bePack 1 nx ++
      (bePack 1 hop ++ (bePack 16 s.int ++ bePack 16 d.int))))))) := by
    rw [e0, e1, e2, e3, e4, e6, e7, ← Ip6Address.toBytes_eq, ← Ip6Address.toBytes_eq, e8, e24]
    simp only [slice_append_slice, Nat.le_add_left, Nat.reduceLeDiff, Nat.reduceAdd, Nat.zero_add]
    rfl
  have hps0 := Ip6.pshdr_ok s d pl nx (by omega) l6
  rw [Ip6.read] at hr
  simp only [Ip6.dlen, Ip6.next, Ip6.src, Ip6.dst, Ip6.dscp, Ip6.ecn, Ip6.flow, Ip6.hop, i0, i1, i2, i3, i4, i6, i7, i8, i24, hps0,
    codec, Except.ok.injEq] at hr
  subst hr
  simp only at s1 r3
  obtain ⟨w, hw⟩ : ∃ w, w = bePack 1 b0 ++ (bePack 1 b1 ++ (bePack 1 b2 ++ (bePack 1 b3 ++ (bePack 2 data.length ++ (bePack 1 next ++
      (bePack 1 hop ++ (bePack 16 s.int ++ (bePack 16 d.int ++ data)))))))) := ⟨_, rfl⟩
  have hwl : w.length = 40 + data.length := by rw [hw]; simp [codec]; omega
  have hmod : ∀ {n}, n < 256 → n % 256 = n := fun h => Nat.mod_eq_of_lt h
  have j0 : idx w 0 = .ok b0 := by rw [hw]; simp [codec]; omega
  have j1 : idx w 1 = .ok b1 := by rw [hw]; simp [codec]; omega
  have j2 : idx w 2 = .ok b2 := by rw [hw]; simp [codec]; omega
  have j3 : idx w 3 = .ok b3 := by rw [hw]; simp [codec]; omega
  have j4 : u16 w 4 = .ok data.length := by rw [hw]; simp [codec]; omega
  have j6 : idx w 6 = .ok next := by rw [hw]; simp [codec]; omega
  have j7 : idx w 7 = .ok hop := by rw [hw]; simp [codec]; omega
  have j8 : Ip6Address.ofBytes (slice w 8 24) = .ok s := by rw [hw]; simp [codec]
  have j24 : Ip6Address.ofBytes (slice w 24 40) = .ok d := by rw [hw]; simp [codec]
  have j40 : sliceFrom w 40 = data := by rw [hw]; simp [codec]
  have hps := Ip6.pshdr_ok s d data.length next (by omega) hn
  have hb0 : b0 >>> 4 = 6 := by
    obtain ⟨hi, e⟩ := idx_eq_ok.mp i0
    rw [List.getElem?_eq_getElem hi] at r2
    simp [e] at r2
    rw [Nat.shiftRight_eq_div_pow]; omega
  generalize hpsv : wordSum 8 5 (s.toBytes ++ d.toBytes ++ bePack 4 data.length ++ [0, 0, 0] ++ bePack 1 next) = psv at hps
  have hread : Ip6.read w = .ok {
      dscp := ((b0 &&& 15) <<< 2 ||| (b1 &&& 192) >>> 6), ecn := (b1 &&& 48) >>> 4,
      flow := ((b1 &&& 15) <<< 16 ||| b2 <<< 8 ||| b3), dlen := data.length, next := next, hop := hop, src := s, dst := d,
      headerCopy := w.take 40, packetCopy := w.take (40 + data.length), pshdrSum := psv, rest := data } := by
    simp only [Ip6.read, Ip6.dlen, Ip6.next, Ip6.src, Ip6.dst, Ip6.dscp, Ip6.ecn, Ip6.flow, Ip6.hop, j0, j1, j2, j3, j4, j6, j7, j8, j24,
      hps, codec, j40]
  refine ⟨w, ?_, ?_, _, hread, rfl, rfl, rfl, rfl, rfl, rfl, rfl, rfl, rfl, hps⟩
  · rw [Frag.finishIp6, hcopy, packIntoH_ok hd (by simp [codec])]
    simp only [codec, take_skip, drop_skip, setIdx_skip, setIdx_here, Nat.reduceLeDiff, Nat.reduceSub, Nat.reduceAdd, Except.map,
      Nat.le_refl, Nat.sub_self, List.nil_append]
    rw [hw, UInt8.toNat_ofNat', hmod hn]
  · simp only [Ip6.parse, Ip6.ver, Ip6.hop, Ip6.src, j0, j4, j7, j8, codec, hb0]
    simp [hwl, r3, s1]

/-- C30: as C29 for IPv6 (the pieces of one datagram carry the same next header). -/
theorem C30_ip6_reassembly {data : Bytes} {room : Nat} {fs : List Piece} (hF : IsFragmentation data room fs)
    (hne : data ≠ []) (hlen : data.length < 65536) (k : Frag.Key6) (next : Nat) (hnext : next < 256)
    (evs : List (FragRx (Ip6.Hdr × Ip6Frag.Hdr)))
    (flows : Dict Frag.Key6 Flow) (hnew : flows.get? k = none) (hp : ∀ e ∈ flows, ∀ ev ∈ evs, e.2.timestamp ≤ ev.t₀)
    (hclock : ClockMonotone evs) (hparsed : ∀ e ∈ evs, Ip6.ParsedFrag e.pkt)
    (hpc : ∀ e ∈ evs, (e.pkt.1.src, e.pkt.1.dst, e.pkt.2.id) = k → e.pkt.2.piece ∈ fs ∧ e.pkt.2.next = next) :
    ∃ whole : Ip6.Hdr × Ip6Frag.Hdr → Bytes, (∀ e ∈ evs, Ip6.Whole e.pkt.1 next data (whole e.pkt)) ∧
      ((fragTrace (fun s t₀ t₁ p => Frag.defragIp6 s t₀ t₁ p.1 p.2) flows evs).filter
          (fun r => (r.1.pkt.1.src, r.1.pkt.1.dst, r.1.pkt.2.id) = k)).map (·.2) =
        (deliveries fs [] ((evs.filter (fun e => (e.pkt.1.src, e.pkt.1.dst, e.pkt.2.id) = k)).map
          (fun e => (e.pkt.2.piece, e.pkt)))).map (fun o => .ok (o.map whole)) := by
  obtain ⟨whole, hw⟩ : ∃ whole : Ip6.Hdr × Ip6Frag.Hdr → Bytes, whole = fun p =>
    match Frag.finishIp6 next p.1.headerCopy data with
    | .ok w => w
    | .error _ => [] := ⟨_, rfl⟩
  refine ⟨whole, ?_, ?_⟩
  · intro e he
    obtain ⟨w, h1, h2⟩ := finishIp6_ok e.pkt (hparsed e he) next hnext data hlen
    rw [hw]
    simp only [h1]
    exact h2
  · have h := fragTrace_deliveries (header := fun p : Ip6.Hdr × Ip6Frag.Hdr => p.1.headerCopy)
      (key := fun p : Ip6.Hdr × Ip6Frag.Hdr => (p.1.src, p.1.dst, p.2.id))
      (piece := fun p => p.2.piece) (finish := fun p => Frag.finishIp6 p.2.next) (fin := Frag.finishIp6 next) hF hne k evs flows []
      (by simp) (by rw [Frag.TracksAt, hnew]) hp hclock (fun e he hk => ⟨(hpc e he hk).1, by rw [(hpc e he hk).2]⟩)
    have h' := h
    rw [show (fun (s : Dict Frag.Key6 Flow) t₀ t₁ (a : Ip6.Hdr × Ip6Frag.Hdr) => defrag (Frag.finishIp6 a.2.next) s t₀ t₁
      (a.1.src, a.1.dst, a.2.id) a.1.headerCopy a.2.piece.offset a.2.piece.mf a.2.piece.data) =
      (fun s t₀ t₁ p => Frag.defragIp6 s t₀ t₁ p.1 p.2) from rfl] at h'
    rw [h']
    refine List.map_congr_left ?_
    intro o ho
    cases o with
    | none => rfl
    | some h₀ =>
      have : ∃ e ∈ evs, e.pkt = h₀ := by
        obtain ⟨x, hx, hx'⟩ := deliveries_mem _ _ ho
        rw [List.nil_append] at hx
        obtain ⟨e, he, rfl⟩ := List.mem_map.mp hx
        exact ⟨e, (List.mem_filter.mp he).1, hx'⟩
      obtain ⟨e, he, rfl⟩ := this
      obtain ⟨w, h3, -⟩ := finishIp6_ok e.pkt (hparsed e he) next hnext data hlen
      simp only [h3, hw, Option.map_some]
      rfl


/-! ### C31 -/

/-- The state after a history. -/
def fragState {S α : Type} (step : S → Int → Int → α → S × Py (Option Bytes)) : S → List (FragRx α) → S
  | s, [] => s
  | s, e :: es => fragState step (step s e.t₀ e.t₁ e.pkt).1 es

theorem fragState_append {S α : Type} (step : S → Int → Int → α → S × Py (Option Bytes)) (s : S) (a b : List (FragRx α)) :
    fragState step s (a ++ b) = fragState step (fragState step s a) b := by
  induction a generalizing s with
  | nil => rfl
  | cons e a ih => exact ih _

theorem fill_length {b r : Bytes} {l : List (Nat × Bytes)} (h : Frag.fill b l = .ok r) : r.length = b.length := by
  induction l generalizing b with
  | nil => simp [Frag.fill] at h; rw [h]
  | cons x l ih =>
    obtain ⟨o, d⟩ := x
    rw [Frag.fill, packIntoBytes] at h
    split at h
    · cases h
    · rename_i heq
      split at heq
      · injection heq with heq
        rw [ih h, ← heq]; simp; omega
      · cases heq

theorem fill_error {b : Bytes} {l : List (Nat × Bytes)} {e : PyErr} (h : Frag.fill b l = .error e) :
    e = .structError ∧ ∃ x ∈ l, b.length < x.1 + x.2.length := by
  induction l generalizing b with
  | nil => simp [Frag.fill] at h
  | cons x l ih =>
    obtain ⟨o, d⟩ := x
    rw [Frag.fill, packIntoBytes] at h
    split at h
    · rename_i heq
      split at heq
      · cases heq
      · rename_i hl
        injection heq with heq
        injection h with h
        exact ⟨by rw [← h, ← heq], (o, d), by simp, by simpa using hl⟩
    · rename_i heq
      split at heq
      · injection heq with heq
        obtain ⟨h1, y, hy, h2⟩ := ih h
        refine ⟨h1, y, by simp [hy], ?_⟩
        rw [← heq] at h2
        simp at h2
        omega
      · cases heq

theorem walk_end {n len : Nat} {l : List (Nat × Bytes)} (h : Frag.walk n l = some len) :
    (l = [] ∧ len = n) ∨ ∃ x, l.getLast? = some x ∧ len = x.1 + x.2.length := by
  induction l generalizing n with
  | nil => simp [Frag.walk] at h; exact Or.inl ⟨rfl, h.symm⟩
  | cons x l ih =>
    obtain ⟨o, d⟩ := x
    rw [Frag.walk] at h
    split at h
    · cases h
    · right
      rcases ih h with ⟨rfl, rfl⟩ | ⟨x, hx, rfl⟩
      · exact ⟨(o, d), rfl, rfl⟩
      · exact ⟨x, by rw [List.getLast?_cons, hx]; rfl, rfl⟩

theorem setIdx_ok {b : Bytes} {i : Nat} {v : UInt8} (h : i < b.length) : ∃ c, setIdx b i v = .ok c ∧ c.length = b.length :=
  ⟨_, by rw [setIdx, if_pos h], by simp⟩

theorem packIntoH_ex {f : Bytes} {i n : Nat} (hn : n < 65536) (hi : i + 2 ≤ f.length) :
    ∃ c, packIntoH f i n = .ok c ∧ c.length = f.length := ⟨_, packIntoH_ok hn hi, by simp; omega⟩

theorem packIntoH_big {f : Bytes} {i n : Nat} (hn : 65536 ≤ n) : packIntoH f i n = .error .structError := by
  simp [packIntoH, packH, show ¬ n < 65536 by omega]

/-- Making the whole IPv4 packet fails only on its length. -/
theorem finishIp4_raises (h d : Bytes) (hh : h.length = 20) :
    (d.length ≤ 65515 ∧ ∃ w, Frag.finishIp4 h d = .ok w) ∨ (65515 < d.length ∧ Frag.finishIp4 h d = .error .structError) := by
  obtain ⟨a, ha, la⟩ := setIdx_ok (b := h) (i := 0) (v := 0x45) (by omega)
  rcases Nat.lt_or_ge 65515 d.length with hd | hd
  · right
    refine ⟨hd, ?_⟩
    rw [Frag.finishIp4, ha, py_ok_bind, packIntoH_big (by omega), py_error_bind]
  · left
    refine ⟨hd, ?_⟩
    obtain ⟨b, hb, lb⟩ := packIntoH_ex (f := a) (i := 2) (n := 20 + d.length) (by omega) (by omega)
    obtain ⟨c, hc, lc⟩ := setIdx_ok (b := b) (i := 6) (v := 0) (by omega)
    obtain ⟨c', hc', lc'⟩ := setIdx_ok (b := c) (i := 7) (v := 0) (by omega)
    obtain ⟨c₁, hc₁, lc₁⟩ := setIdx_ok (b := c') (i := 10) (v := 0) (by omega)
    obtain ⟨c₂, hc₂, lc₂⟩ := setIdx_ok (b := c₁) (i := 11) (v := 0) (by omega)
    obtain ⟨c₃, hc₃, lc₃⟩ := packIntoH_ex (f := c₂) (i := 10) (n := inetCksum c₂) (inetCksum_lt _ _) (by omega)
    exact ⟨c₃ ++ d, by simp only [Frag.finishIp4, ha, hb, hc, hc', hc₁, hc₂, hc₃, py_ok_bind, py_pure]⟩

/-- Making the whole IPv6 packet fails only on its length. -/
theorem finishIp6_raises (nx : Nat) (h d : Bytes) (hh : h.length = 40) :
    (d.length ≤ 65535 ∧ ∃ w, Frag.finishIp6 nx h d = .ok w) ∨
      (65535 < d.length ∧ Frag.finishIp6 nx h d = .error .structError) := by
  rcases Nat.lt_or_ge 65535 d.length with hd | hd
  · right
    refine ⟨hd, ?_⟩
    rw [Frag.finishIp6, packIntoH_big (by omega), py_error_bind]
  · left
    refine ⟨hd, ?_⟩
    obtain ⟨b, hb, lb⟩ := packIntoH_ex (f := h) (i := 4) (n := d.length) (by omega) (by omega)
    obtain ⟨c, hc, lc⟩ := setIdx_ok (b := b) (i := 6) (v := UInt8.ofNat nx) (by omega)
    exact ⟨c ++ d, by simp only [Frag.finishIp6, hb, hc, py_ok_bind, py_pure]⟩

/-- All that is stored for a flow comes from fragments of the history. -/
def FromHistory {K α : Type} (header : α → Bytes) (key : α → K) (piece : α → Piece) (flows : Dict K Flow)
    (hist : List (FragRx α)) : Prop :=
  ∀ e ∈ flows, (∃ p ∈ hist, header p.pkt = e.2.header) ∧ e.2.data.keys.Nodup ∧
    ∀ x ∈ e.2.data, ∃ p ∈ hist, key p.pkt = e.1 ∧ (piece p.pkt).offset = x.1 ∧ (piece p.pkt).data = x.2

section
variable {K α : Type} [DecidableEq K] {header : α → Bytes} {key : α → K} {piece : α → Piece}
  {finish : α → Bytes → Bytes → Py Bytes}

theorem FromHistory.mono {flows flows' : Dict K Flow} {hist hist' : List (FragRx α)}
    (h : FromHistory header key piece flows hist) (hf : ∀ e ∈ flows', e ∈ flows) (hh : ∀ p ∈ hist, p ∈ hist') :
    FromHistory header key piece flows' hist' := by
  intro e he
  obtain ⟨⟨p, hp, hp'⟩, h2, h3⟩ := h e (hf e he)
  refine ⟨⟨p, hh p hp, hp'⟩, h2, ?_⟩
  intro x hx
  obtain ⟨q, hq, h4⟩ := h3 x hx
  exact ⟨q, hh q hq, h4⟩

theorem FromHistory.record {flows : Dict K Flow} {hist : List (FragRx α)} (h : FromHistory header key piece flows hist)
    (e : FragRx α) :
    FromHistory header key piece (flows.set (key e.pkt) (Frag.record flows e.t₁ (key e.pkt) (header e.pkt)
      (piece e.pkt).offset (piece e.pkt).mf (piece e.pkt).data)) (hist ++ [e]) := by
  intro x hx
  rcases Frag.mem_set hx with rfl | hx
  · have main : ∀ fl : Flow, (∃ p ∈ hist ++ [e], header p.pkt = fl.header) → fl.data.keys.Nodup →
        (∀ x ∈ fl.data, ∃ p ∈ hist ++ [e], key p.pkt = key e.pkt ∧ (piece p.pkt).offset = x.1 ∧ (piece p.pkt).data = x.2) →
        (∃ p ∈ hist ++ [e], header p.pkt = (if (piece e.pkt).mf then fl else { fl with last := true }).header) ∧
          (if (piece e.pkt).mf then fl else { fl with last := true }).data.keys.Nodup ∧
          ∀ x ∈ (if (piece e.pkt).mf then fl else { fl with last := true }).data,
            ∃ p ∈ hist ++ [e], key p.pkt = key e.pkt ∧ (piece p.pkt).offset = x.1 ∧ (piece p.pkt).data = x.2 := by
      intro fl h1 h2 h3
      cases (piece e.pkt).mf <;> exact ⟨h1, h2, h3⟩
    refine main _ ?_ ?_ ?_
    · split
      · rename_i fl hfl
        obtain ⟨⟨p, hp, hp'⟩, -⟩ := h _ (Dict.get?_mem hfl)
        exact ⟨p, by simp [hp], hp'⟩
      · exact ⟨e, by simp, rfl⟩
    · split
      · rename_i fl hfl
        obtain ⟨-, h2, -⟩ := h _ (Dict.get?_mem hfl)
        exact Dict.nodup_set _ _ h2
      · simp [Dict.keys]
    · split
      · rename_i fl hfl
        obtain ⟨-, -, h3⟩ := h _ (Dict.get?_mem hfl)
        intro x hx
        rcases Frag.mem_set hx with rfl | hx
        · exact ⟨e, by simp, rfl, rfl, rfl⟩
        · obtain ⟨p, hp, h4⟩ := h3 x hx
          exact ⟨p, by simp [hp], h4⟩
      · intro x hx
        simp at hx
        subst hx
        exact ⟨e, by simp, rfl, rfl, rfl⟩
  · exact h.mono (fun _ h => h) (by simp; tauto) x hx

/-- The generic step of both reassembly functions. -/
abbrev genStep (header : α → Bytes) (key : α → K) (piece : α → Piece) (finish : α → Bytes → Bytes → Py Bytes) :
    Dict K Flow → Int → Int → α → Dict K Flow × Py (Option Bytes) :=
  fun s t₀ t₁ a => defrag (finish a) s t₀ t₁ (key a) (header a) (piece a).offset (piece a).mf (piece a).data

theorem FromHistory.step {flows : Dict K Flow} {hist : List (FragRx α)} (h : FromHistory header key piece flows hist)
    (e : FragRx α) :
    FromHistory header key piece (genStep header key piece finish flows e.t₀ e.t₁ e.pkt).1 (hist ++ [e]) := by
  have h0 : FromHistory header key piece (Frag.cleanup flows e.t₀) hist :=
    h.mono (fun x hx => (List.mem_filter.mp hx).1) (fun _ h => h)
  have h1 := h0.record e
  simp only [genStep]
  rw [defrag]
  split
  · exact h1
  · split
    · exact h1
    · split
      · exact h1
      · exact h1.mono (fun x hx => (List.mem_filter.mp hx).1) (fun _ h => h)

theorem FromHistory.state (hist : List (FragRx α)) (flows : Dict K Flow) (pre : List (FragRx α))
    (h : FromHistory header key piece flows pre) :
    FromHistory header key piece (fragState (genStep header key piece finish) flows hist) (pre ++ hist) := by
  induction hist generalizing flows pre with
  | nil => rw [List.append_nil]; exact h
  | cons e es ih =>
    have := ih _ (pre ++ [e]) (h.step (finish := finish) e)
    rw [List.append_assoc] at this
    exact this

/-- What a raise of the generic step means. -/
theorem genStep_raises (limit : Nat) {flows : Dict K Flow} {hist : List (FragRx α)} (h : FromHistory header key piece flows hist)
    (e : FragRx α) (hfin : ∀ p ∈ hist ++ [e], ∀ d, (d.length ≤ limit ∧ ∃ w, finish e.pkt (header p.pkt) d = .ok w) ∨
      (limit < d.length ∧ finish e.pkt (header p.pkt) d = .error .structError)) (err : PyErr)
    (hr : (genStep header key piece finish flows e.t₀ e.t₁ e.pkt).2 = .error err) :
    err = .structError ∧
      ((∃ p ∈ hist ++ [e], ∃ q ∈ hist ++ [e], key p.pkt = key e.pkt ∧ key q.pkt = key e.pkt ∧
          (piece p.pkt).offset < (piece q.pkt).offset ∧
          (piece q.pkt).offset < (piece p.pkt).offset + (piece p.pkt).data.length) ∨
        ∃ p ∈ hist ++ [e], key p.pkt = key e.pkt ∧ limit < (piece p.pkt).offset + (piece p.pkt).data.length) := by
  have h0 : FromHistory header key piece (Frag.cleanup flows e.t₀) hist :=
    h.mono (fun x hx => (List.mem_filter.mp hx).1) (fun _ h => h)
  have h1 := h0.record e
  simp only [genStep] at hr
  rw [defrag] at hr
  revert h1 hr
  generalize Frag.record (Frag.cleanup flows e.t₀) e.t₁ (key e.pkt) (header e.pkt)
      (piece e.pkt).offset (piece e.pkt).mf (piece e.pkt).data = fl
  intro hr h1
  obtain ⟨⟨p₀, hp₀, hh⟩, hnd, hd⟩ := h1 (key e.pkt, fl) (Dict.get?_mem (Dict.get?_set_self _ _ _))
  simp only at hh hnd hd
  have hsm : ∀ x ∈ fl.data.sortedItems, x ∈ fl.data := fun x hx => (Dict.sortedItems_perm _).mem_iff.mp hx
  have hsort := Dict.sortedItems_pairwise hnd
  split at hr
  · cases hr
  split at hr
  · cases hr
  rename_i len hw
  rcases walk_end hw with ⟨h2, h3⟩ | ⟨z, hz, hlen⟩
  · rw [h2, h3] at hr
    simp only [Frag.fill] at hr
    rcases hfin p₀ hp₀ [] with ⟨-, w, h4⟩ | ⟨h4, -⟩
    · rw [← hh] at hr
      simp only [List.replicate_zero, h4] at hr
      cases hr
    · simp at h4
  have hz' := hsm z (List.mem_of_getLast? hz)
  obtain ⟨q, hq, hqk, hqo, hqd⟩ := hd z hz'
  split at hr
  · rename_i e' hf
    obtain ⟨rfl, x, hx, hlt⟩ := fill_error hf
    injection hr with hr
    refine ⟨hr.symm, Or.inl ?_⟩
    obtain ⟨p, hp, hpk, hpo, hpd⟩ := hd x (hsm x hx)
    refine ⟨p, hp, q, hq, hpk, hqk, ?_, ?_⟩
    · rw [hpo, hqo]
      have hne : fl.data.sortedItems ≠ [] := List.ne_nil_of_mem hx
      have hzl : fl.data.sortedItems.getLast hne = z := by
        rw [List.getLast?_eq_some_getLast hne] at hz; injection hz
      have hx' : x ∈ fl.data.sortedItems.dropLast ++ [z] := by rw [← hzl, List.dropLast_concat_getLast]; exact hx
      rcases List.mem_append.mp hx' with hx' | hx'
      · rw [← List.dropLast_concat_getLast hne, hzl, List.pairwise_append] at hsort
        exact hsort.2.2 x hx' z (by simp)
      · rw [List.mem_singleton] at hx'
        subst hx'
        simp at hlt
        omega
    · rw [hpo, hqo, hpd]
      simp at hlt
      omega
  · rename_i d hf
    have hdl := fill_length hf
    simp at hdl
    rcases hfin p₀ hp₀ d with ⟨-, w, h4⟩ | ⟨h4, h5⟩
    · rw [← hh, h4] at hr; cases hr
    · rw [← hh, h5] at hr
      injection hr with hr
      refine ⟨hr.symm, Or.inr ⟨q, hq, hqk, ?_⟩⟩
      rw [hqo, hqd]
      omega
end

/-- C31 for IPv4, what is true of it: for every history of parsed fragments, reassembly raises (`struct.error`) only if, among
the fragments of the same datagram received so far, one starts inside another, or one ends beyond the 65515 bytes an IPv4
packet can carry. -/
theorem C31_ip4_raises_only_partial (hist : List (FragRx Ip4.Hdr)) (e : FragRx Ip4.Hdr)
    (hp : ∀ p ∈ hist ++ [e], Ip4.Parsed p.pkt) (err : PyErr)
    (hr : (Frag.defragIp4 (fragState Frag.defragIp4 [] hist) e.t₀ e.t₁ e.pkt).2 = .error err) :
    let same (p : FragRx Ip4.Hdr) : Prop :=
      (p.pkt.src, p.pkt.dst, p.pkt.id) = (e.pkt.src, e.pkt.dst, e.pkt.id)
    err = .structError ∧
      ((∃ p ∈ hist ++ [e], ∃ q ∈ hist ++ [e], same p ∧ same q ∧ p.pkt.offset < q.pkt.offset ∧
          q.pkt.offset < p.pkt.offset + p.pkt.dataCopy.length) ∨
        ∃ p ∈ hist ++ [e], same p ∧ 65515 < p.pkt.offset + p.pkt.dataCopy.length) := by
  intro same
  refine genStep_raises (header := Ip4.Hdr.headerCopy) (key := fun p : Ip4.Hdr => (p.src, p.dst, p.id))
    (piece := Ip4.Hdr.piece) (finish := fun _ => Frag.finishIp4) 65515
    (FromHistory.state hist [] [] (by intro x hx; cases hx)) e ?_ err hr
  intro p hp' d
  rw [List.nil_append] at hp'
  refine finishIp4_raises _ _ ?_
  obtain ⟨f, h1, h2⟩ := hp p hp'
  obtain ⟨r, h3, -, -, h4, h5, h6, -⟩ := C26_ip4_accepted_partial f h1
  have hl : 20 ≤ f.length := by omega
  rw [h2] at h3; cases h3
  rw [Ip4.read] at h2
  obtain ⟨ve, hn, dscp, ecn, plen, id', df, mf, off, ttl', proto, src, dst, k1, k2, k3, k4, k5, k6, k7, k8, k9, k10, k11,
      k12, k13, -⟩ := Ip4.cut f hl
  cases ho : Ip4.options f with
  | error e => simp [k1, k2, k3, k4, k5, k6, k7, k8, k9, k10, k11, k12, k13, ho] at h2
  | ok o =>
  cases hq : Ip4.pshdrSum src dst proto (plen - hn) with
  | error e => simp [k1, k2, k3, k4, k5, k6, k7, k8, k9, k10, k11, k12, k13, ho, hq] at h2
  | ok q =>
  simp only [k1, k2, k3, k4, k5, k6, k7, k8, k9, k10, k11, k12, k13, ho, hq, py_ok_bind, py_pure, Except.ok.injEq] at h2
  rw [← h2]
  simp; omega

/-- C31 for IPv6, likewise (65535 bytes). -/
theorem C31_ip6_raises_only_partial (hist : List (FragRx (Ip6.Hdr × Ip6Frag.Hdr))) (e : FragRx (Ip6.Hdr × Ip6Frag.Hdr))
    (hp : ∀ p ∈ hist ++ [e], Ip6.ParsedFrag p.pkt) (err : PyErr)
    (hr : (Frag.defragIp6 (fragState (fun s t₀ t₁ p => Frag.defragIp6 s t₀ t₁ p.1 p.2) [] hist) e.t₀ e.t₁ e.pkt.1 e.pkt.2).2 =
      .error err) :
    let same (p : FragRx (Ip6.Hdr × Ip6Frag.Hdr)) : Prop :=
      (p.pkt.1.src, p.pkt.1.dst, p.pkt.2.id) = (e.pkt.1.src, e.pkt.1.dst, e.pkt.2.id)
    err = .structError ∧
      ((∃ p ∈ hist ++ [e], ∃ q ∈ hist ++ [e], same p ∧ same q ∧ p.pkt.2.offset < q.pkt.2.offset ∧
          q.pkt.2.offset < p.pkt.2.offset + p.pkt.2.dataCopy.length) ∨
        ∃ p ∈ hist ++ [e], same p ∧ 65535 < p.pkt.2.offset + p.pkt.2.dataCopy.length) := by
  intro same
  refine genStep_raises (header := fun p : Ip6.Hdr × Ip6Frag.Hdr => p.1.headerCopy)
    (key := fun p : Ip6.Hdr × Ip6Frag.Hdr => (p.1.src, p.1.dst, p.2.id))
    (piece := fun p => p.2.piece) (finish := fun p => Frag.finishIp6 p.2.next) 65535
    (FromHistory.state hist [] [] (by intro x hx; cases hx)) e ?_ err hr
  intro p hp' d
  rw [List.nil_append] at hp'
  refine finishIp6_raises _ _ _ ?_
  obtain ⟨f, h1, h2, -⟩ := hp p hp'
  obtain ⟨r, h3, h4, h5, -, -, -, -, h6, -⟩ := C26_ip6_accepted f h1
  rw [h2] at h3; cases h3
  rw [Ip6.read] at h2
  cases hd1 : Ip6.dlen f <;> simp only [hd1, py_ok_bind, py_error_bind] at h2 <;> try cases h2
  rename_i v1
  cases hd2 : Ip6.next f <;> simp only [hd2, py_ok_bind, py_error_bind] at h2 <;> try cases h2
  rename_i v2
  cases hd3 : Ip6.src f <;> simp only [hd3, py_ok_bind, py_error_bind] at h2 <;> try cases h2
  rename_i v3
  cases hd4 : Ip6.dst f <;> simp only [hd4, py_ok_bind, py_error_bind] at h2 <;> try cases h2
  rename_i v4
  cases hd5 : Ip6.dscp f <;> simp only [hd5, py_ok_bind, py_error_bind] at h2 <;> try cases h2
  rename_i v5
  cases hd6 : Ip6.ecn f <;> simp only [hd6, py_ok_bind, py_error_bind] at h2 <;> try cases h2
  rename_i v6
  cases hd7 : Ip6.flow f <;> simp only [hd7, py_ok_bind, py_error_bind] at h2 <;> try cases h2
  rename_i v7
  cases hd8 : Ip6.hop f <;> simp only [hd8, py_ok_bind, py_error_bind] at h2 <;> try cases h2
  rename_i v8
  cases hd : Ip6.pshdrSum v3 v4 v1 v2 <;> simp only [hd, py_ok_bind, py_error_bind, py_pure] at h2 <;> try cases h2
  injection h2 with h2
  rw [← h2]
  simp; omega

/-! ### C32 -/

/-- C32 is false: while the clock does not go back, nothing stored is ever forgotten: whatever fragments of other datagrams
arrive, however much later, an incomplete datagram stays exactly as it is. -/
theorem C32_never_expires_witness {K α : Type} [DecidableEq K] {header : α → Bytes} {key : α → K} {piece : α → Piece}
    {finish : α → Bytes → Bytes → Py Bytes} (k : K) (evs : List (FragRx α)) (flows : Dict K Flow)
    (hp : ∀ e ∈ flows, ∀ ev ∈ evs, e.2.timestamp ≤ ev.t₀) (hclock : ClockMonotone evs)
    (hother : ∀ e ∈ evs, key e.pkt ≠ k) :
    (fragState (genStep header key piece finish) flows evs).get? k = flows.get? k := by
  induction evs generalizing flows with
  | nil => rfl
  | cons e es ih =>
    have hpast : Frag.Past flows e.t₀ := fun x hx => hp x hx e (by simp)
    have hc : e.t₀ ≤ e.t₁ ∧ (∀ ev ∈ es, e.t₁ ≤ ev.t₀) ∧ ClockMonotone es := by
      rw [ClockMonotone, List.flatMap_cons, List.pairwise_append] at hclock
      obtain ⟨h1, h2, h3⟩ := hclock
      refine ⟨by simpa using h1, ?_, h2⟩
      intro ev hev
      exact h3 _ (by simp) _ (List.mem_flatMap.mpr ⟨ev, hev, by simp⟩)
    obtain ⟨ht, hnext, hes⟩ := hc
    rw [fragState, ih _ ?_ hes (fun x hx => hother x (by simp [hx]))]
    · exact Frag.defrag_other _ _ hpast (fun h => hother e (by simp) h.symm) _ _ _ _
    · intro x hx ev hev
      exact Int.le_trans (Frag.defrag_past _ hpast ht _ _ _ _ _ x hx) (hnext ev hev)

/-! ### Witnesses and examples, on real frames -/
namespace Example

/-- Fragment 10.0.1.9 -> 10.0.1.7, id 5, UDP. -/
def frame (offset : Nat) (mf : Bool) (data : Bytes) : Bytes :=
  match Ip4.assembleFrag ⟨⟨0x0A000109, by decide⟩, ⟨0x0A000107, by decide⟩, 64, 0, 0, 5, false, mf, offset, [], 17⟩ data with
  | .ok f => f
  | .error _ => []

/-- What reassembly answers to parsed frames received at the given times. -/
def answers (l : List (Int × Bytes)) : List (Py (Option Bytes)) :=
  (fragTrace Frag.defragIp4 [] (l.filterMap (fun x => match Ip4.read x.2 with
    | .ok h => some ⟨x.1, x.1, h⟩
    | .error _ => none))).map (·.2)

/-- The three frames below are accepted by the parser. -/
example : Ip4.parse (frame 0 true (List.replicate 24 1)) = .ok none ∧ Ip4.parse (frame 24 false [2, 3]) = .ok none ∧
    Ip4.parse (frame 8 false (List.replicate 8 2)) = .ok none := by decide +kernel

/-- Two fragments, the second first, and twice: the last call delivers the 26 bytes. -/
example : (answers [(0, frame 24 false [2, 3]), (1, frame 24 false [2, 3]), (2, frame 0 true (List.replicate 24 1))]).map
    (Except.map (Option.map (fun f => (Ip4.read f).map (·.dataCopy)))) =
    [.ok none, .ok none, .ok (some (.ok (List.replicate 24 1 ++ [2, 3])))] := by decide +kernel

/-- The pieces of that datagram, as C29 wants them. -/
example : IsFragmentation (List.replicate 24 1 ++ [2, 3]) 24 [⟨0, true, List.replicate 24 1⟩, ⟨24, false, [2, 3]⟩] where
  concat := rfl
  offset i f h := by
    match i with
    | 0 => simp at h; subst h; rfl
    | 1 => simp at h; subst h; rfl
    | i + 2 => simp at h
  aligned := by decide
  nonempty := by decide
  fits := by decide
  mf i f h := by
    match i with
    | 0 => simp at h; subst h; simp
    | 1 => simp at h; subst h; simp
    | i + 2 => simp at h

example : (Ip4.read (frame 0 true (List.replicate 24 1))).map Ip4.Hdr.piece = .ok ⟨0, true, List.replicate 24 1⟩ ∧
    (Ip4.read (frame 24 false [2, 3])).map Ip4.Hdr.piece = .ok ⟨24, false, [2, 3]⟩ := by decide +kernel

/-- C31 is false: a last fragment inside an earlier one raises `struct.error`, and so does every later fragment. -/
theorem C31_overlap_witness : answers [(0, frame 0 true (List.replicate 24 1)), (1, frame 8 false (List.replicate 8 2)),
    (2, frame 0 true (List.replicate 24 1))] = [.ok none, .error .structError, .error .structError] := by decide +kernel

/-- C32 is false: two fragments an hour apart are put together. -/
theorem C32_stale_witness : (answers [(0, frame 0 true (List.replicate 24 1)), (3600000000, frame 24 false [2, 3])]).map
    (Except.map (Option.isSome)) = [.ok false, .ok true] := by decide +kernel

end Example

/-- C31 is false: completing any datagram of more than 65515 bytes raises. -/
theorem C31_oversize_witness {data : Bytes} {room : Nat} {fs : List Piece} (hF : IsFragmentation data room fs)
    (hbig : 65515 < data.length) (k : Frag.Key4) (flows : Dict Frag.Key4 Flow) (got : List (Piece × Bytes))
    (hg : ∀ x ∈ got, x.1 ∈ fs) (hT : Frag.TracksAt id flows k got) {t₀ : Int} (t₁ : Int) (hp : Frag.Past flows t₀)
    (x : Piece × Bytes) (hx : x.1 ∈ fs) (hh : ∀ y ∈ got ++ [x], y.2.length = 20)
    (hall : ∀ p ∈ fs, p ∈ (got ++ [x]).map (·.1)) :
    (defrag Frag.finishIp4 flows t₀ t₁ k x.2 x.1.offset x.1.mf x.1.data).2 = .error .structError := by
  have := Frag.defrag_same hF (by intro e; rw [e] at hbig; simp at hbig) Frag.finishIp4 hg hT t₁ hp x hx
  simp only [if_pos hall] at this
  obtain ⟨-, h₀, h1, h2⟩ := this
  obtain ⟨y, hy, rfl⟩ := Option.map_eq_some_iff.mp h1
  rw [show (defrag Frag.finishIp4 flows t₀ t₁ k x.2 x.1.offset x.1.mf x.1.data).2 = _ from h2]
  rcases finishIp4_raises y.2 data (hh y (List.mem_of_head? hy)) with ⟨h3, -⟩ | ⟨-, h3⟩
  · omega
  · simp only [id]
    rw [h3]; rfl

end Verif
