import Verif.Lemmas.ThreadsAlone
import Verif.Props.Socket
/-!
C99: sockets used by several threads at once, with a thread switch possible between any two accesses to what they share.

* Receiving is right whatever the threads do: every datagram goes to one call of `recv`, in order, and no call waits while a datagram is there
  (`C99_recv`).
* The receive thread gives a datagram to a socket it has found in the table, and to no socket only if it found none (`C99_found`, `C99_refused`); a
  socket that stays in the table gets what is for it (`C99_reaches`), and it stays there, whatever is done to other sockets, unless one of them has
  the same addresses and ports (`C99_stays`).
* `bind`, `connect` and `sendto` do what they should only if nobody else makes, moves or closes a socket meanwhile (`C99_alone_bind_partial`,
  `C99_alone_connect_partial`, `C99_alone_sendto_partial`).  Otherwise two sockets may be given the same address and port
  (`C99_both_bound`), a call may raise RuntimeError (`C99_raises`), and a datagram for a socket that is being connected may be refused (`C99_gap`).
-/
namespace Verif
open Spec Threads

attribute [local irreducible] Socks.ephemeral

/-! ### Receiving -/

/-- C99: whatever the threads do, no call of `recv` or `recvfrom` finds the queue empty; what was put into the queue of a socket is what the calls have
returned, in order, followed by what still waits, so that every datagram goes to exactly one call; as many calls can go on as datagrams wait, save while
one has been put in and not been announced yet; and every datagram that came has been put into one queue, or refused, at most once, in the order of
arrival. -/
theorem C99_recv {s : Threads.St} (h0 : NoSockets s) (xs : List Threads.Step) :
    (∀ r, .empty r ∉ (s.run xs).log) ∧
    (∀ (r : Nat) o, (s.run xs).ss.socks[r]? = some o →
      queuedFor (s.run xs).log r = returnedBy (s.run xs).log r ++ o.queue ∧
      ((s.run xs).rx ≠ .release r → (s.run xs).sem r + (s.run xs).takers r = o.queue.length)) ∧
    (disposed (s.run xs).log).Sublist (cameIn xs) := by
  have h := qinv h0 xs
  refine ⟨?_, ?_, (List.sublist_append_left _ _).trans (disposed_sub h0 xs)⟩
  · intro r hr
    exact h.fine r hr
  · intro r o ho
    refine ⟨h.order r o ho, fun hx => ?_⟩
    have := h.count r o ho
    rw [pending, if_neg hx] at this
    omega

/-- C99: every datagram the receive thread has begun with, and is done with, has been put into the queue of one socket or refused, once, in order. -/
theorem C99_each {s : Threads.St} (h0 : NoSockets s) (xs : List Threads.Step) (hi : (s.run xs).rx = .idle) :
    disposed (s.run xs).log = begunWith s xs := by
  have := begun_run (known_none h0) xs
  rw [hi, h0] at this
  rw [h0]
  simpa [inHand, disposed] using this

/-- C99: a call that is past the semaphore returns the datagram that has waited longest. -/
theorem C99_takes {s : Threads.St} (h0 : NoSockets s) (xs : List Threads.Step) {r : Nat} (ht : (s.run xs).takers r ≠ 0) :
    ∃ o m q, (s.run xs).ss.socks[r]? = some o ∧ o.queue = m :: q ∧
      (s.run (xs ++ [.take r])).log = (s.run xs).log ++ [.got r m] ∧
      ((s.run (xs ++ [.take r])).ss.socks[r]?).map (·.queue) = some q := by
  have h := qinv h0 xs
  cases ho : (s.run xs).ss.socks[r]? with
  | none => exact absurd (h.absent r ho).2.1 ht
  | some o =>
    have hc := h.count r o ho
    cases hq : o.queue with
    | nil =>
      rw [hq] at hc
      simp only [List.length_nil] at hc
      omega
    | cons m q =>
      refine ⟨o, m, q, rfl, hq, ?_, ?_⟩
      · rw [Threads.run_snoc, St.step, if_neg ht]
        dsimp only
        rw [ho]
        dsimp only
        rw [hq]
      · rw [Threads.run_snoc, St.step, if_neg ht]
        dsimp only
        rw [ho]
        dsimp only
        rw [hq]
        dsimp only
        rw [put_get ho]
        rfl

/-! ### Which socket gets a datagram -/

/-- C99: a datagram is put into the queue of a socket only if, while it was looked for, that socket was in the table under one of the ids the datagram is looked up
by, and at some moment no socket was there under each id that comes before. -/
theorem C99_found {s : Threads.St} (h0 : NoSockets s) {xs : List Threads.Step} {e : Threads.Step} {r : Nat} {m : UdpMd}
    (h : (s.run (xs ++ [e])).log = (s.run xs).log ++ [.queued r m]) :
    ∃ ys, Seeking s xs ys m ∧ ∃ before p after, m.patterns = before ++ p :: after ∧
      (AtSomeTime s xs (ys ++ [.arrive m]) fun t => t.ss.table.get? p = some r) ∧
      ∀ q ∈ before, AtSomeTime s xs (ys ++ [.arrive m]) fun t => t.ss.table.get? q = none := by
  rw [Threads.run_snoc] at h
  have := looked h0 xs
  rw [(dealt h).1 r m rfl] at this
  exact this

/-- C99: a datagram is refused only if, while a socket was looked for, there was for each id it is looked up by a moment at which no socket was in the table under
it. -/
theorem C99_refused {s : Threads.St} (h0 : NoSockets s) {xs : List Threads.Step} {e : Threads.Step} {m : UdpMd}
    (h : (s.run (xs ++ [e])).log = (s.run xs).log ++ [.refused m]) :
    ∃ ys, Seeking s xs ys m ∧ ∀ q ∈ m.patterns, AtSomeTime s xs (ys ++ [.arrive m]) fun t => t.ss.table.get? q = none := by
  rw [Threads.run_snoc] at h
  have := looked h0 xs
  rw [(dealt h).2 m rfl] at this
  exact this

/-- C99: if a socket is the one for the datagram, under the same id, as long as it is looked for, then it is the one the datagram is given to. -/
theorem C99_reaches {s : Threads.St} (h0 : NoSockets s) {xs ys : List Threads.Step} {m : UdpMd} {p : SockId} {r : Nat} (hs : Seeking s xs ys m)
    (hf : Throughout s xs (ys ++ [.arrive m]) fun t => FoundUnder t.ss m p r) :
    (∀ r' m', (s.run (xs ++ [.rx])).log = (s.run xs).log ++ [.queued r' m'] → r' = r ∧ m' = m) ∧
    (∀ m', (s.run (xs ++ [.rx])).log ≠ (s.run xs).log ++ [.refused m']) := by
  constructor
  · intro r' m' h
    obtain ⟨ys', hs', before, q, after, hp, h1, h2⟩ := C99_found h0 h
    obtain ⟨rfl, rfl⟩ := seeking_unique hs hs'
    refine ⟨?_, rfl⟩
    obtain ⟨ws, w1, w2, w3⟩ := h1
    obtain ⟨b, a, hb, h3, h4⟩ := hf ws w1 w2
    have hpb := hp.symm.trans hb
    rcases Nat.lt_trichotomy before.length b.length with hl | hl | hl
    · have := congrArg (fun l => l[before.length]?) hpb
      simp only [List.getElem?_append_right (Nat.le_refl _), Nat.sub_self, List.getElem?_cons_zero, List.getElem?_append_left hl] at this
      rw [h4 q (List.mem_of_getElem? this.symm)] at w3
      cases w3
    · have := congrArg (fun l => l[before.length]?) hpb
      simp only [List.getElem?_append_right (Nat.le_refl _), Nat.sub_self, List.getElem?_cons_zero] at this
      rw [hl, List.getElem?_append_right (Nat.le_refl _)] at this
      simp only [Nat.sub_self, List.getElem?_cons_zero, Option.some.injEq] at this
      rw [this, h3] at w3
      exact (Option.some.inj w3).symm
    · have := congrArg (fun l => l[b.length]?) hpb
      simp only [List.getElem?_append_right (Nat.le_refl _), Nat.sub_self, List.getElem?_cons_zero, List.getElem?_append_left hl] at this
      obtain ⟨vs, v1, v2, v3⟩ := h2 p (List.mem_of_getElem? this)
      obtain ⟨_, _, _, h5, _⟩ := hf vs v1 v2
      rw [v3] at h5
      cases h5
  · intro m' h
    obtain ⟨ys', hs', h2⟩ := C99_refused h0 h
    obtain ⟨rfl, rfl⟩ := seeking_unique hs hs'
    obtain ⟨b, a, hb, -⟩ := hf xs hs.began List.prefix_rfl
    obtain ⟨vs, v1, v2, v3⟩ := h2 p (by rw [hb]; simp)
    obtain ⟨_, _, _, h5, _⟩ := hf vs v1 v2
    rw [v3] at h5
    cases h5

/-- C99: a socket that nobody closes, and on which no call that would move it is under way, stays in the table under its id, whatever is done to
other sockets, as long as none of them has the same id. -/
theorem C99_stays {s : Threads.St} {xs : List Threads.Step} {r : Nat} {o : Sock} (h : Registered s.ss r o)
    (hl : ∀ ys e, ys ++ [e] <+: xs → LeftAlone r (s.run ys) e)
    (ho : Throughout s xs [] fun t => ∀ (x : Nat) o', x ≠ r → t.ss.socks[x]? = some o' → o'.id ≠ o.id) :
    ∃ o', Registered (s.run xs).ss r o' ∧ o'.id = o.id := by
  suffices h : ((s.run xs).ss.socks[r]?).map (·.id) = some o.id ∧ (s.run xs).ss.table.get? o.id = some r by
    obtain ⟨h1, h2⟩ := h
    cases hx : (s.run xs).ss.socks[r]? with
    | none => rw [hx] at h1; cases h1
    | some o' =>
      rw [hx] at h1
      have h1 : o'.id = o.id := by simpa using h1
      exact ⟨o', ⟨hx, by rw [h1]; exact h2⟩, h1⟩
  induction xs using List.reverseRecOn with
  | nil =>
    rw [run_nil, h.1]
    exact ⟨rfl, h.2⟩
  | append_singleton xs e ih =>
    obtain ⟨h1, h2⟩ := ih (fun ys e' hy => hl ys e' (hy.trans (List.prefix_append _ _))) fun ws w1 w2 => ho ws w1 (w2.trans (List.prefix_append _ _))
    have h3 := ho xs (List.nil_prefix) (List.prefix_append _ _)
    have h4 := ho (xs ++ [e]) (List.nil_prefix) List.prefix_rfl
    rw [Threads.run_snoc] at h4 ⊢
    exact stays_step (hl xs e List.prefix_rfl) h1 h2 h3 h4

/-! ### Calls -/

/-- C99, as far as it holds: a call of `bind` between whose steps only the receive thread and calls of `recv` and `recvfrom` make steps comes to what it comes to
on its own.  Missing: the same with other calls of `bind`, `connect`, `sendto`, `close` between them, where it fails (`C99_both_bound`, `C99_raises`). -/
theorem C99_alone_bind_partial {s₀ : Threads.St} (h0 : NoSockets s₀) (ws : List Threads.Step) {r : Nat} {addr : Option IpAddress} {port : Int} {choice : Nat}
    (hr : r < (s₀.run ws).ss.socks.length) {ys : List Threads.Step} (hy : ∀ e ∈ ys, Elsewhere e ∨ e = .go (s₀.run ws).calls.length) {x : Threads.Res}
    (hd : ((s₀.run (ws ++ .bind r addr port choice :: ys)).calls[(s₀.run ws).calls.length]?).map (·.pos) = some (.done x)) :
    x = endOf ((s₀.run ws).ss.bind (s₀.run ws).stack r addr port choice).2 ∧
    SamePlaces (s₀.run (ws ++ .bind r addr port choice :: ys)).ss ((s₀.run ws).ss.bind (s₀.run ws).stack r addr port choice).1 := by
  have hn := nodup_run h0 ws
  have hrun : s₀.run (ws ++ .bind r addr port choice :: ys) = ((s₀.run ws).step (.bind r addr port choice)).run ys := by
    rw [St.run, List.foldl_append]; rfl
  rw [hrun] at hd ⊢
  generalize s₀.run ws = s at *
  obtain ⟨o, ho⟩ : ∃ o, s.ss.socks[r]? = some o := ⟨_, List.getElem?_eq_getElem hr⟩
  have hg : Going s.stack s.calls.length r choice
      (bare (s.ss.bind s.stack r addr port choice).1, endOf (s.ss.bind s.stack r addr port choice).2) (s.step (.bind r addr port choice)) := by
    refine begun ho (sized_begin _ _ _ _ _).1 ?_
    have hc : clear { o with unreachable := o.unreachable } = clear o := rfl
    dsimp only
    rw [hc, put_same (clear_get ho)]
    exact fin_bind hn s.stack ho addr port choice
  obtain ⟨h1, h2⟩ := (hg.run hy).done hd
  exact ⟨h2, same_of_bare h1⟩

/-- C99, as far as it holds: the same for `connect` (for a TCP socket: up to where the session is made). -/
theorem C99_alone_connect_partial {s₀ : Threads.St} (h0 : NoSockets s₀) (ws : List Threads.Step) {r : Nat} {addr : Option IpAddress} {port : Int} {choice : Nat}
    (hr : r < (s₀.run ws).ss.socks.length) {ys : List Threads.Step} (hy : ∀ e ∈ ys, Elsewhere e ∨ e = .go (s₀.run ws).calls.length) {x : Threads.Res}
    (hd : ((s₀.run (ws ++ .connect r addr port choice :: ys)).calls[(s₀.run ws).calls.length]?).map (·.pos) = some (.done x)) :
    x = endOf ((s₀.run ws).ss.connect (s₀.run ws).stack r addr port choice).2 ∧
    SamePlaces (s₀.run (ws ++ .connect r addr port choice :: ys)).ss ((s₀.run ws).ss.connect (s₀.run ws).stack r addr port choice).1 := by
  have hrun : s₀.run (ws ++ .connect r addr port choice :: ys) = ((s₀.run ws).step (.connect r addr port choice)).run ys := by
    rw [St.run, List.foldl_append]; rfl
  rw [hrun] at hd ⊢
  generalize s₀.run ws = s at *
  obtain ⟨o, ho⟩ : ∃ o, s.ss.socks[r]? = some o := ⟨_, List.getElem?_eq_getElem hr⟩
  have hg : Going s.stack s.calls.length r choice
      (bare (s.ss.connect s.stack r addr port choice).1, endOf (s.ss.connect s.stack r addr port choice).2) (s.step (.connect r addr port choice)) :=
    begun ho (sized_begin _ _ _ _ _).2 (fin_connect s.stack ho addr port choice)
  obtain ⟨h1, h2⟩ := (hg.run hy).done hd
  exact ⟨h2, same_of_bare h1⟩

/-- C99, as far as it holds: the same for `sendto` on a socket that has no port, as far as it gives it one. -/
theorem C99_alone_sendto_partial {s₀ : Threads.St} (h0 : NoSockets s₀) (ws : List Threads.Step) {r : Nat} {port : Nat} {choice : Nat} {o : Sock}
    (ho : (s₀.run ws).ss.socks[r]? = some o) (hp : port < 65536) (hport : o.id.lport = 0)
    {ys : List Threads.Step} (hy : ∀ e ∈ ys, Elsewhere e ∨ e = .go (s₀.run ws).calls.length) {x : Threads.Res}
    (hd : ((s₀.run (ws ++ .sendto r port choice :: ys)).calls[(s₀.run ws).calls.length]?).map (·.pos) = some (.done x)) :
    x = endOf (givenPort (s₀.run ws).ss r o choice).2 ∧
    SamePlaces (s₀.run (ws ++ .sendto r port choice :: ys)).ss (givenPort (s₀.run ws).ss r o choice).1 := by
  have hrun : s₀.run (ws ++ .sendto r port choice :: ys) = ((s₀.run ws).step (.sendto r port choice)).run ys := by
    rw [St.run, List.foldl_append]; rfl
  rw [hrun] at hd ⊢
  generalize s₀.run ws = s at *
  have hf : (if ¬ ((0 : Int) ≤ port ∧ (port : Int) < 65536) then Pos.done (.raised .overflowError)
      else if 1 ≤ o.id.lport ∧ o.id.lport < 65536 then .done .ok else .first) = .first := by
    rw [if_neg (by omega), if_neg (by omega)]
  have hg : Going s.stack s.calls.length r choice
      (bare (givenPort s.ss r o choice).1, endOf (givenPort s.ss r o choice).2) (s.step (.sendto r port choice)) := by
    refine begun ho (by dsimp only; rw [hf]; trivial) ?_
    have hc : clear { o with unreachable := o.unreachable } = clear o := rfl
    dsimp only
    rw [hf, hc, put_same (clear_get ho)]
    exact fin_sendto s.stack ho choice
  obtain ⟨h1, h2⟩ := (hg.run hy).done hd
  exact ⟨h2, same_of_bare h1⟩

/-! ### Where it fails -/

namespace Example.Threads
open Example Verif.Threads

def s : St := { stack := stack }

/-- all addresses -/
def any : IpAddress := .v4 .zero
/-- 10.0.1.9 -/
def peer : IpAddress := .v4 ⟨0x0A000109, by decide⟩
/-- 10.0.1.7, the stack's own -/
def own : IpAddress := .v4 host4.address
/-- a datagram from 10.0.1.9, port 7, to 10.0.1.7, port 5000 -/
def m : UdpMd := ⟨own, 5000, peer, 7, [1]⟩
def m' : UdpMd := ⟨own, 5000, peer, 7, [2]⟩

/-- How the call `k` has ended. -/
def ended (t : St) (k : Nat) : Option Threads.Res := match t.calls[k]? with
  | some ⟨_, _, .done x⟩ => some x
  | _ => none

def two : List Step := [.socket .inet4 .dgram, .socket .inet4 .dgram]

/-- Two threads bind two sockets to port 5000 of all addresses; each looks whether the port is in use before the other has taken it. -/
def both : List Step := two ++ [.bind 0 (some any) 5000 0, .bind 1 (some any) 5000 0, .go 0, .go 1, .go 0, .go 1,
  .go 0, .go 0, .go 0, .go 1, .go 1, .go 1]

/-- One socket is bound; then one thread looks whether port 6000 is in use while another binds a third socket to port 7000. -/
def during : List Step := two ++ [.socket .inet4 .dgram, .bind 0 (some any) 5000 0, .go 0, .go 0, .go 0, .go 0, .go 0,
  .bind 1 (some any) 6000 0, .bind 2 (some any) 7000 0, .go 2, .go 1, .go 2, .go 2, .go 2, .go 2, .go 2, .go 1]

/-- A socket is bound to port 5000. -/
def bound : List Step := [.socket .inet4 .dgram, .bind 0 (some any) 5000 0, .go 0, .go 0, .go 0, .go 0, .go 0]

/-- It is connected to 10.0.1.9, port 7; a datagram from there comes when it has been taken out of the table and not been put in again. -/
def gap : List Step := [.connect 0 (some peer) 7 0, .go 1, .arrive m, .rx, .rx, .rx, .rx, .rx, .rx, .go 1, .go 1]

end Example.Threads

open Example Example.Threads in
/-- C99: two threads bind two sockets to the same address and port, and both calls succeed; the datagrams go to one of them, until the other is closed:
then they are refused, though nobody has closed the socket they went to. -/
theorem C99_both_bound : ∃ (s : Threads.St) (xs : List Threads.Step) (m : UdpMd), NoSockets s ∧
    (∃ a b, (s.run xs).ss.socks[0]? = some a ∧ (s.run xs).ss.socks[1]? = some b ∧ Clash a.id b.id ∧ a.id.lport = 5000) ∧
    ((s.run xs).calls.map (fun c => (c.sock, c.pos))) = [(0, .done .ok), (1, .done .ok)] ∧
    (s.run (xs ++ [.arrive m, .rx, .rx, .rx, .rx, .rx, .rx])).log = [.queued 1 m] ∧
    (s.run (xs ++ [.close 0, .arrive m, .rx, .rx, .rx, .rx, .rx, .rx])).log = [.refused m] :=
  ⟨s, both, m, rfl, ⟨_, _, rfl, rfl, by decide +kernel, by decide +kernel⟩, rfl, by decide +kernel, by decide +kernel⟩

open Example Example.Threads in
/-- C99: `bind` on a socket without a port, to a port nobody uses, raises RuntimeError, because another thread binds another socket meanwhile. -/
theorem C99_raises : ∃ (s : Threads.St) (xs : List Threads.Step), NoSockets s ∧
    ((s.run xs).calls.map (fun c => (c.sock, c.pos))) = [(0, .done .ok), (1, .done .changed), (2, .done .ok)] ∧
    (((s.run xs).ss.bind s.stack 1 (some (.v4 .zero)) 6000 0).2 = .ok ()) :=
  ⟨s, during, rfl, rfl, by decide +kernel⟩

open Example Example.Threads in
/-- C99: a datagram from the peer a socket is being connected to is refused, though it is for that socket before and after, and nothing else happens. -/
theorem C99_gap : ∃ (s : Threads.St) (xs ys : List Threads.Step) (m : UdpMd), NoSockets s ∧
    (s.run xs).ss.match? m = some 0 ∧ (s.run (xs ++ ys)).ss.match? m = some 0 ∧ cameIn (xs ++ ys) = [m] ∧
    ((s.run (xs ++ ys)).calls.map (fun c => (c.sock, c.pos))) = [(0, .done .ok), (0, .done .ok)] ∧
    (∀ e ∈ ys, e ≠ .close 0 ∧ e ≠ .gone 0) ∧ (s.run (xs ++ ys)).log = [.refused m] := by
  refine ⟨s, bound, gap, m, rfl, by decide +kernel, by decide +kernel, rfl, rfl, ?_, by decide +kernel⟩
  intro e he
  simp only [gap, List.mem_cons, List.not_mem_nil, or_false] at he
  rcases he with rfl | rfl | rfl | rfl | rfl | rfl | rfl | rfl | rfl | rfl | rfl <;> simp

/-! ### Cases that meet the hypotheses -/

namespace Example.Threads
open Example Verif.Threads

/-- Two datagrams come; two threads wait in `recv`, and the second gets past the semaphore before the first has taken its datagram. -/
def served : List Step := bound ++ [.arrive m, .rx, .rx, .rx, .rx, .rx, .acquire 0, .arrive m', .rx, .rx, .rx, .rx, .rx, .acquire 0, .take 0, .take 0]

example : NoSockets s ∧ (s.run served).log = [.queued 0 m, .queued 0 m', .got 0 m, .got 0 m'] := ⟨rfl, by decide +kernel⟩

/-- The receive thread is done with both (`C99_each`). -/
example : (s.run served).rx = .idle ∧ begunWith s served = [m, m'] := by decide +kernel

/-- Half way: one call has got past the semaphore (`C99_takes`). -/
example : (s.run (served.take 14)).takers 0 ≠ 0 := by decide +kernel

/-- The datagram is put into the queue (`C99_found`), and while it is looked for the socket is the one for it (`C99_reaches`). -/
example : (s.run ((bound ++ [.arrive m, .rx, .rx, .rx]) ++ [.rx])).log = (s.run (bound ++ [.arrive m, .rx, .rx, .rx])).log ++ [.queued 0 m] := by decide +kernel

theorem prefixes {ys zs ws : List Step} (h1 : ys <+: ws) (h2 : ws <+: ys ++ zs) : ∃ n ≤ zs.length, ws = ys ++ zs.take n := by
  obtain ⟨t, rfl⟩ := h1
  rw [List.prefix_append_right_inj] at h2
  exact ⟨t.length, h2.length_le, by rw [List.prefix_iff_eq_take.1 h2]; simp⟩

example : Seeking s (bound ++ [.arrive m] ++ [.rx, .rx, .rx]) bound m := by
  refine ⟨List.prefix_append _ _, by decide +kernel, ?_⟩
  intro ws h1 h2
  obtain ⟨n, hn, rfl⟩ := prefixes h1 h2
  have : ∀ n ≤ 3, (s.run (bound ++ [.arrive m] ++ [Step.rx, .rx, .rx].take n)).rx ≠ .idle := by decide +kernel
  exact this n hn

example : Throughout s (bound ++ [.arrive m] ++ [.rx, .rx, .rx]) (bound ++ [.arrive m]) fun t =>
    FoundUnder t.ss m ⟨.inet4, .dgram, any, 5000, any, 0⟩ 0 := by
  intro ws h1 h2
  obtain ⟨n, hn, rfl⟩ := prefixes h1 h2
  have h3 : ∀ n ≤ 3, (s.run (bound ++ [.arrive m] ++ [Step.rx, .rx, .rx].take n)).ss.table.get? ⟨.inet4, .dgram, any, 5000, any, 0⟩ = some 0 ∧
      ∀ q ∈ m.patterns.take 2, (s.run (bound ++ [.arrive m] ++ [Step.rx, .rx, .rx].take n)).ss.table.get? q = none := by decide +kernel
  exact ⟨m.patterns.take 2, m.patterns.drop 3, by decide +kernel, h3 n hn⟩

/-- A bound socket left alone while another is made, bound and closed. -/
def others : List Step := [.socket .inet4 .dgram, .bind 1 (some any) 6000 0, .go 1, .go 1, .go 1, .go 1, .go 1, .go 1, .close 1]

example : (s.run bound).ss.match? m = some 0 ∧ ((s.run bound).run others).ss.match? m = some 0 ∧
    (((s.run bound).run (others.take 8)).ss.table.map (·.2)) = [0, 1] := by decide +kernel

example : (∀ ys e, ys ++ [e] <+: others → LeftAlone 0 ((s.run bound).run ys) e) ∧
    Throughout (s.run bound) others [] fun t => ∀ (x : Nat) o', x ≠ 0 → t.ss.socks[x]? = some o' → o'.id ≠ ⟨.inet4, .dgram, any, 5000, any, 0⟩ := by
  constructor
  · intro ys e h
    obtain ⟨t, ht⟩ := h
    have hlen : ys.length < 9 := by
      have := congrArg List.length ht
      simp [others] at this
      omega
    have hys : ys = others.take ys.length := by rw [← ht]; simp
    have he : others[ys.length]? = some e := by rw [← ht]; simp
    have h1 : ∀ n < 9, ∀ c ∈ ((s.run bound).run (others.take n)).calls, c.sock = 0 → (match c.pos with | .done _ => true | _ => false) = true := by
      decide +kernel
    have hmem := List.mem_of_getElem? he
    refine ⟨?_, ?_, ?_⟩
    · rintro rfl; simp [others] at hmem
    · rintro rfl; simp [others] at hmem
    · intro c hc h0
      rw [hys] at hc
      have := h1 ys.length hlen c hc h0
      cases hp : c.pos <;> rw [hp] at this <;> first | exact ⟨_, rfl⟩ | cases this
  · intro ws h1 h2
    have h2' : ws <+: [] ++ others := h2
    obtain ⟨n, hn, rfl⟩ := prefixes h1 h2'
    have h3 : ∀ n ≤ 9, ∀ x < 2, x ≠ 0 → ∀ o' ∈ ((s.run bound).run ([] ++ others.take n)).ss.socks[x]?, o'.id ≠ ⟨.inet4, .dgram, any, 5000, any, 0⟩ := by
      decide +kernel
    have h4 : ∀ n ≤ 9, ((s.run bound).run ([] ++ others.take n)).ss.socks.length ≤ 2 := by decide +kernel
    intro x o' hx ho
    have := (List.getElem?_eq_some_iff.1 ho).1
    exact h3 n hn x (by have := h4 n hn; omega) hx o' ho

/-- Calls alone, with a datagram between their steps. -/
example : ended (s.run ([.socket .inet4 .dgram] ++ .bind 0 (some any) 5000 0 :: [.go 0, .arrive m, .rx, .go 0, .rx, .rx, .rx, .go 0, .rx, .rx, .go 0, .go 0])) 0 = some .ok := by
  decide +kernel
example : ended (s.run (bound ++ .connect 0 (some peer) 7 0 :: [.go 1, .arrive m, .rx, .go 1, .go 1])) 1 = some .ok := by decide +kernel
example : ended (s.run ([.socket .inet4 .dgram] ++ .sendto 0 7 0 :: [.go 0, .go 0, .go 0, .go 0, .go 0])) 0 = some .ok := by decide +kernel
/-- On its own `bind` on a port in use fails. -/
example : ended (s.run (bound ++ [.socket .inet4 .dgram] ++ .bind 1 (some own) 5000 0 :: [.go 1, .go 1])) 1 = some (.raised .osError) := by decide +kernel

end Example.Threads
end Verif
