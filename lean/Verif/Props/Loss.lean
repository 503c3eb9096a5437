import Verif.Lemmas.LostAck
import Verif.Props.SessionTimeout
import Verif.Spec.Live
/-!
C86: a segment that is lost.  TCP is there to make up for that: what is not acknowledged is sent again, and what arrives again is
acknowledged again (RFC 9293, 3.10.7.4).  This stack does the first but not the second.
-/
namespace Verif
open Sess Spec

/-- C86, the first half: what is not acknowledged is sent again.  When the oldest number not acknowledged has been sent `k` times, at
most three, and nothing arrives for `1000 * 2 ^ (k - 1)` milliseconds, it is sent once more.

Missing: the other half of the property is false of this code (`C86_old_ignored`, `C86_lost_ack`).  The hypotheses are those of
`C56_silent_partial`. -/
theorem C86_resent_partial {iss q k : Nat} (active : Bool) (lip : IpAddress) (lport : Nat) (rip : IpAddress) (rport : Nat)
    (evs : List Ev) (h : ∀ m ∈ arrivals evs, m.ack = true → m.rst = false → m.ackn ≠ iss) (blocks : List (List Ev))
    (hb : ∀ b ∈ blocks, Quiet b) (hn : 1000 * 2 ^ (k - 1) ≤ blocks.length) :
    let s := (opened active iss lip lport rip rport).run evs
    Retransmits s.state → s.sndUna = q → q < s.sndNxt → 1 ≤ k → k ≤ 3 → transmissions q s.out = k →
      s.rcvNxt ≤ 0xFFFFFFFF → (s.state = .established ∨ s.state = .closeWait → s.sndMss ≠ 0) →
      (s.state = .finWait1 ∨ s.state = .lastAck → s.sndFin ≠ q) →
      k < transmissions q (s.run blocks.flatten).out := by
  intro s hst hu hnx h1 h3 hk hr hm hf
  have hS : SendInv iss s := send_run h (send_opened active lip lport rip rport)
  have hC : CountInv s := count_run h (send_opened active lip lport rip rport) (count_opened ..)
  have hT : TimerInv s := timer_run h (send_opened active lip lport rip rport) (timer_opened ..)
  have hF : Fits s := fits_run active lip lport rip rport h
  have hcnt := hC.count q (by omega)
  unfold counted at hcnt
  cases htmo : s.txTmo.get? q with
  | none => rw [htmo] at hcnt; dsimp only at hcnt; omega
  | some c =>
    rw [htmo] at hcnt
    dsimp only at hcnt
    have hq : q ≤ 0xFFFFFFFF := by
      obtain ⟨g, hg⟩ := List.exists_mem_of_length_pos (l := (Spec.sent s.out).filter fun g => g.seq = q ∧ (g.data ≠ [] ∨ g.syn ∨ g.fin))
        (by change 0 < transmissions q s.out; omega)
      obtain ⟨g1, g2⟩ := List.mem_filter.1 hg
      have := (hF g g1).1
      simp at g2
      omega
    have hw : Waits iss q c s := ⟨hS, hT, hst, hu, hnx, htmo, hm, hf, hq, hr⟩
    have hck : c = k - 1 := by omega
    have hleft : s.left q ≤ 1000 * 2 ^ c := by
      unfold left
      cases hv : s.timers.get? (.retransmit q) with
      | none =>
        have : (0 : Int) < 2 ^ c := Int.pow_pos (by decide)
        simp
        omega
      | some v => exact (hT.run q c v htmo hv).2
    have := hw.resent hC (by omega) hb (by
      rw [← hck] at hn
      have hn' := Int.ofNat_le.2 hn
      rw [Int.natCast_mul, Int.natCast_pow] at hn'
      have : (0 : Int) < 2 ^ c := Int.pow_pos (by decide)
      change (1000 : Int) * 2 ^ c ≤ _ at hn'
      omega)
    omega

/-- C86: a segment that arrives again - or any segment with a number that has been passed - changes nothing in an open session, and
no acknowledgement is sent for it. -/
theorem C86_old_ignored {s : Sess} (hs : s.state = .established) {m : TcpMd} (hm : m.seq < s.rcvNxt) : s.step (.segment m) = s :=
  Mute.old hs hm

/-- C86: data that arrive before the ACK that ends the handshake (which may be lost) change nothing either. -/
theorem C86_early_ignored {s : Sess} (hs : s.state = .synRcvd) {m : TcpMd} (hm : m.data ≠ []) (hr : m.rst = false) : s.step (.segment m) = s := by
  show (s.fsm (.packet m)).done = s
  unfold fsm fsmFuel fsmWith
  rw [hs]
  show (s.fsmSynRcvd _ (.packet m)).done = s
  unfold fsmSynRcvd
  dsimp only
  rw [if_neg (fun x => hm x.2.2.2), if_neg (by simp [isRstAck, hr]), if_neg (by simp [isRst, hr])]
  rfl

/-- C86 is false: the loss of one acknowledgement ends the connection, when the applications send nothing more.  The session `a` waits
for the acknowledgement of what it has sent; `b` has received all of it and has acknowledged it, and has nothing to send.  From then
on every segment of `a` may arrive at `b`, any number of times; `b` never sends anything, so there is nothing that could arrive at `a`;
after 15 seconds `a` gives up, sends a RST and is closed; and `b`, whatever arrives, stays open. -/
theorem C86_lost_ack {ia ib : Nat} {p p' : Bool} {lip rip lip' rip' : IpAddress} {lport rport lport' rport' : Nat} {evs evs' : List Ev} {a b : Sess}
    (ha : a = (opened p ia lip lport rip rport).run evs) (ha' : ∀ m ∈ arrivals evs, m.ack = true → m.rst = false → m.ackn ≠ ia)
    (hb : b = (opened p' ib lip' lport' rip' rport').run evs') (hb' : ∀ m ∈ arrivals evs', m.ack = true → m.rst = false → m.ackn ≠ ib)
    (a1 : a.state = .established) (a2 : a.sndUna < a.sndNxt) (a3 : 1 ≤ transmissions a.sndUna a.out ∧ transmissions a.sndUna a.out ≤ 4)
    (a4 : a.rcvUna = a.rcvNxt ∧ a.rcvNxt ≤ 0xFFFFFFFF) (a5 : a.sndMss ≠ 0)
    (b1 : b.state = .established) (b2 : b.closes = false) (b3 : b.tx = []) (b4 : b.rcvUna = b.rcvNxt)
    (b5 : b.rcvNxt = ia + 1 + (accepted a.out).length)
    (blocks : List (List Ev)) (hq : ∀ x ∈ blocks, Quiet x) (hs : ∀ x ∈ blocks, ∀ e ∈ x, ∀ d, e ≠ .send d) (hn : 15000 ≤ blocks.length) (later : List Ev)
    (hl : ∀ e ∈ later, Still e ∨ ∃ m, e = .segment m ∧ ∃ g ∈ since a (a.run blocks.flatten), Carries g m) :
    (a.run blocks.flatten).state = .closed ∧ (∃ g ∈ sent (a.run blocks.flatten).out, g.rst = true ∧ g.seq = a.sndUna) ∧
    (b.run later).state = .established ∧ sent (b.run later).out = sent b.out := by
  have hS : SendInv ia a := by rw [ha]; exact send_run ha' (send_opened p lip lport rip rport)
  have hS' : SendInv ib b := by rw [hb]; exact send_run hb' (send_opened p' lip' lport' rip' rport')
  have hob := hS'.openPhase (.inl b1)
  obtain ⟨-, e2, e3⟩ := hob.empty b3
  have hmute : Mute b := by
    refine ⟨b1, b2, b3, e2, hob.mod, ?_, b4⟩
    cases ht : b.txTmo.get? b.sndUna with
    | none => rfl
    | some c =>
      obtain ⟨e, he1, he2⟩ := get?_key ht
      have := hob.tmo e he1 (by rw [he2])
      omega
  have hoa := hS.openPhase (.inl a1)
  have halone : Alone a.sndUna a := ⟨a1, rfl, fun ht => by have := hoa.empty ht; omega, a4.1⟩
  have hstill : ∀ e ∈ blocks.flatten, Still e := by
    intro e he
    obtain ⟨x, hx, hex⟩ := List.mem_flatten.1 he
    have hd := hs x hx e hex
    cases hq x hx with
    | ms h1 h2 =>
      rcases List.mem_cons.1 hex with y | y
      · exact .inl y
      · rcases List.mem_append.1 y with y | y
        · exact .inr (.inr ⟨h1 e y, hd⟩)
        · rcases List.mem_cons.1 y with y | y
          · exact .inr (.inl y)
          · exact .inr (.inr ⟨h2 e y, hd⟩)
  obtain ⟨⟨new, n1, n2⟩, n3⟩ := Alone.run (.inl halone) hS hstill
  have hsince : since a (a.run blocks.flatten) = new := by unfold since; rw [n1, List.drop_left]
  have hSr : SendInv ia (a.run blocks.flatten) := by
    refine send_run ?_ hS
    intro m hm
    obtain ⟨e, he, hm⟩ := List.mem_filterMap.1 hm
    rcases hstill e he with x | x | ⟨x, _⟩
    · subst x; simp at hm
    · subst x; simp at hm
    · cases x <;> simp at hm
  have hseq : ∀ g ∈ new, g.seq < b.rcvNxt := by
    intro g hg
    rw [b5]
    rcases n2 g hg with x | x
    · obtain ⟨y1, y2⟩ := hSr.sent.data g (by rw [n1]; exact List.mem_append_right _ hg) x
      rw [n3] at y2
      refine Classical.byContradiction fun hc => x ?_
      rw [← y2, List.drop_eq_nil_iff.2 (by omega), List.take_nil]
    · have := hoa.most
      have := hoa.top
      omega
  obtain ⟨c1, c2, c3⟩ := hmute.run (evs := later) (fun e he => by
    rcases hl e he with x | ⟨m, x, g, hg, hc⟩
    · exact .inl x
    · exact .inr ⟨m, x, by rw [hc.seq]; exact hseq g (by rw [← hsince]; exact hg)⟩)
  have := C56_silent_partial (q := a.sndUna) p lip lport rip rport evs ha' blocks hq hn
  rw [← ha] at this
  obtain ⟨d1, g, d2, d3, -, d4⟩ := this (.inr (.inr (.inl a1))) rfl a2 a3.1 a3.2 a4.2 (fun _ => a5) (by rw [a1]; simp)
  exact ⟨d1, ⟨g, d2, d3, d4⟩, c1.state, c3⟩

namespace Example.Loss

def lip : IpAddress := Example.Session.lip
def rip : IpAddress := Example.Session.rip

def client : List Ev :=
  [.timer, .segment (heard ⟨true, true, false, false, 500, 101, []⟩ rip 80 lip 5000), .send [1, 2], .timer]

def server : List Ev :=
  [.segment (heard ⟨true, false, false, false, 100, 0, []⟩ lip 5000 rip 80), .timer,
   .segment (heard ⟨false, true, false, false, 101, 501, []⟩ lip 5000 rip 80),
   .segment (heard ⟨false, true, false, false, 101, 501, [1, 2]⟩ lip 5000 rip 80), .timer]

def a : Sess := (opened true 100 lip 5000 rip 80).run client
def b : Sess := (opened false 500 rip 80 lip 5000).run server

/-- C86_lost_ack: the client has sent two bytes; the server has them and has acknowledged them. -/
theorem ready : (∀ m ∈ arrivals client, m.ack = true → m.rst = false → m.ackn ≠ 100) ∧
    (∀ m ∈ arrivals server, m.ack = true → m.rst = false → m.ackn ≠ 500) ∧ a.state = .established ∧ a.sndUna < a.sndNxt ∧
    transmissions a.sndUna a.out = 1 ∧ a.rcvUna = a.rcvNxt ∧ a.rcvNxt ≤ 0xFFFFFFFF ∧ a.sndMss ≠ 0 ∧
    b.state = .established ∧ b.closes = false ∧ b.tx = [] ∧ b.rcvUna = b.rcvNxt ∧ b.rcvNxt = 100 + 1 + (accepted a.out).length ∧
    b.rx = [1, 2] ∧ (⟨false, true, false, false, 501, 103, []⟩ : Seg) ∈ sent b.out := by decide +kernel

/-- So it ends as the theorem says, if that acknowledgement is lost. -/
example (blocks : List (List Ev)) (hq : ∀ x ∈ blocks, x = [.clock, .timer]) (hn : 15000 ≤ blocks.length) :
    (a.run blocks.flatten).state = .closed := by
  obtain ⟨h1, h2, h3, h4, h5, h6, h7, h8, h9, h10, h11, h12, h13, -, -⟩ := ready
  refine (C86_lost_ack rfl h1 rfl h2 h3 h4 ⟨(by decide +kernel : 1 ≤ transmissions a.sndUna a.out), (by decide +kernel : transmissions a.sndUna a.out ≤ 4)⟩ ⟨h6, h7⟩ h8 h9 h10 h11 h12 h13 blocks (fun x hx => ?_) (fun x hx e he d => ?_) hn []
    (fun e he => nomatch he)).1
  · rw [hq x hx]
    exact .ms (a := []) (b := []) (fun e he => nomatch he) (fun e he => nomatch he)
  · rw [hq x hx] at he
    intro hd
    subst hd
    simp at he

/-- C86_resent_partial: the same client. -/
example (blocks : List (List Ev)) (hq : ∀ b ∈ blocks, Quiet b) (hn : 1000 ≤ blocks.length) : 1 < transmissions 101 (a.run blocks.flatten).out := by
  obtain ⟨h1, -, h3, h4, h5, h6, h7, h8, -⟩ := ready
  refine C86_resent_partial (k := 1) true lip 5000 rip 80 client h1 blocks hq hn (.inr (.inr (.inl h3))) (by decide +kernel) (by decide +kernel)
    (by decide) (by decide) (by decide +kernel) h7 (fun _ => h8) ?_
  intro h
  rw [show ((opened true 100 lip 5000 rip 80).run client).state = .established from h3] at h
  simp at h

/-- C86_old_ignored: the data of the client once more. -/
example : b.step (.segment (heard ⟨false, true, false, false, 101, 501, [1, 2]⟩ lip 5000 rip 80)) = b :=
  C86_old_ignored (by decide +kernel) (by decide +kernel)

/-- C86_early_ignored: the data of the client, and the ACK before it was lost. -/
example : let s := (opened false 500 rip 80 lip 5000).run (server.take 2)
    s.step (.segment (heard ⟨false, true, false, false, 101, 501, [1, 2]⟩ lip 5000 rip 80)) = s :=
  C86_early_ignored (by decide +kernel) (by decide) rfl

end Example.Loss

end Verif
