import Verif.Lemmas.SendersGenuine
import Verif.Lemmas.SendersAlone
import Verif.Props.Machine
/-!
C98: packets sent in fragments by several threads.  What is queued are fragments of what the calls were told to send, in order and none twice.
But the identification is read from a shared counter again for every fragment: without overlapping calls it is one per packet and no other
packet's, and what a receiver puts together is something that was sent; with overlapping calls none of this holds.
-/
namespace Verif
open Spec Senders

theorem Senders.Made.fragmentOf {s : Stack} {id : Nat} {f : Piece} {o : Outgoing} {w : Way} (h : Made s id f o w) : IsFragmentOf o id f w := by
  cases w with
  | v4 src dst ttl proto => exact ⟨_, h, rfl, rfl, rfl, rfl, rfl, rfl, rfl⟩
  | v6 src dst next =>
    obtain ⟨-, a, -, hp⟩ := h
    exact ⟨_, hp, rfl⟩

theorem Senders.forall₂_mono {α β : Type} {R S : α → β → Prop} {l : List α} {l' : List β} (h : List.Forall₂ R l l') (hr : ∀ a b, R a b → S a b) :
    List.Forall₂ S l l' := by
  induction h with
  | nil => exact .nil
  | cons h _ ih => exact .cons (hr _ _ h) ih

/-- C98: with thread switches anywhere, what is queued is a packet that a call was told to send, or a fragment by one of the calls that send in
fragments; and what such a call has queued are fragments of the packet it was told to send, in order, none twice. -/
theorem C98_pieces {s : St} (hs : Unused s) (xs : List Step) :
    (∀ x ∈ (s.run xs).out, (x.1 = none ∧ SentWhole xs x.2) ∨ ∃ k id j, x.1 = some (k, id) ∧ (s.run xs).jobs[k]? = some j) ∧
    ∀ (k : Nat) j, (s.run xs).jobs[k]? = some j → ∃ data room fs fs', ToldToSend xs data j.way ∧ IsFragmentation data room fs ∧ fs'.Sublist fs ∧
      List.Forall₂ (fun f x => IsFragmentOf x.2 x.1 f j.way) fs' (queuedBy (s.run xs) k) := by
  have hS := sound hs xs
  refine ⟨?_, ?_⟩
  · rintro ⟨tag, o⟩ hx
    cases tag with
    | none =>
      obtain ⟨e, he, hd⟩ := hS.whole o hx
      refine .inl ⟨rfl, ?_⟩
      cases e with
      | ip4 arp src dst ttl c => obtain ⟨a, hp⟩ := hd; exact .inl ⟨arp, src, dst, ttl, c, _, he, hp, rfl, rfl⟩
      | ip6 nd src dst hop c => obtain ⟨a, hp⟩ := hd; exact .inr ⟨nd, src, dst, hop, c, _, he, hp, rfl, rfl⟩
      | bump => cases hd
      | load => cases hd
      | store => cases hd
      | build => cases hd
      | emit => cases hd
    | some t =>
      obtain ⟨j, hj, -⟩ := hS.frag t.1 t.2 o hx
      exact .inr ⟨t.1, t.2, j, rfl, hj⟩
  · intro k j hj
    obtain ⟨⟨room, hf⟩, ht⟩ := (hS.jobs j (List.mem_of_getElem? hj)).1.data
    obtain ⟨fs, h1, h2⟩ := inOrder hs xs k j hj
    exact ⟨_, room, _, fs, ht, hf, h1.trans (List.take_sublist _ _), forall₂_mono h2 fun f x hx => hx.fragmentOf⟩

theorem Senders.queuedBy_mem {s : St} {k : Nat} {x : Nat × Outgoing} : x ∈ queuedBy s k ↔ (some (k, x.1), x.2) ∈ s.out := by
  rw [queuedBy, List.mem_filterMap]
  constructor
  · rintro ⟨⟨tag, o⟩, h1, h2⟩
    cases tag with
    | none => cases h2
    | some t =>
      obtain ⟨k', id⟩ := t
      simp only at h2
      split at h2
      · rename_i h; subst h; cases h2; exact h1
      · cases h2
  · intro h
    exact ⟨_, h, by simp⟩

/-- C98: a call that no other over the same IP version overlaps gives all its fragments one identification, and no other such call has it. -/
theorem C98_own_id_partial {s : St} (hs : Unused s) {xs : List Step} (hx : RaisedAtOnce xs) {k : Nat} {j : Job} (hj : (s.run xs).jobs[k]? = some j)
    (ho : ∀ k' w', k' ≠ k → SameVersion j.way w' → ¬ Overlap s xs k j.way k' w') :
    ∃ id, (∀ x ∈ queuedBy (s.run xs) k, x.1 = id) ∧
      ∀ (k' : Nat) j', k' ≠ k → (s.run xs).jobs[k']? = some j' → SameVersion j.way j'.way → ∀ x ∈ queuedBy (s.run xs) k', ∀ y ∈ queuedBy (s.run xs) k,
        x.1 ≠ y.1 := by
  have hA := apt hs xs hx
  have same : ∀ x ∈ queuedBy (s.run xs) k, ∀ y ∈ queuedBy (s.run xs) k, x.1 = y.1 := by
    intro x h1 y h2
    refine Classical.byContradiction fun hne => ?_
    obtain ⟨k', w', e1, e2, e3⟩ := hA.one k x.1 y.1 j hj (.inl ⟨_, queuedBy_mem.1 h1⟩) (.inl ⟨_, queuedBy_mem.1 h2⟩) hne
    exact ho k' w' e1 (sameVersion_iff.2 e2.symm) e3
  refine ⟨((queuedBy (s.run xs) k).head?.map (·.1)).getD 0, ?_, ?_⟩
  · intro x hm
    cases hq : queuedBy (s.run xs) k with
    | nil => rw [hq] at hm; cases hm
    | cons y l => exact same x hm y (by rw [hq]; exact .head _)
  · intro k' j' hne hj' hv x hx' y hy e
    exact ho k' j'.way hne hv (hA.two k k' x.1 j j' hj hj' (sameVersion_iff.1 hv) (.inl ⟨_, e ▸ queuedBy_mem.1 hy⟩) (.inl ⟨_, queuedBy_mem.1 hx'⟩)
      (Ne.symm hne))

/-- C98: if no two calls send in fragments to the same address at the same time, then when a datagram from this machine is given to a socket of
another, after any frames at all, one of the calls was told to send it. -/
theorem C98_genuine_partial {s : St} (hs : Unused s) {xs : List Step} (hx : RaisedAtOnce xs) (ho : OneAtATime s xs) (hz : Sized xs)
    {past : List Bytes} {n n' : Node} (hn : Received past n) {t₀ t₁ : Int} {d : Nat} {F : Bytes} {l : List Eff}
    (H : Rx.ether n t₀ t₁ d F = (n', .ok l)) {r : Nat} {m : UdpMd} (hm : .udpDeliver r m ∈ l)
    (hp : ∀ G ∈ past ++ [F], SaysFrom G m.rip → G ∈ frames ((s.run xs).out.map (·.2))) :
    ∃ q, Handed xs m.lip 17 q ∧ IsUdp q m.rport m.lport m.data := by
  obtain ⟨q, h1, h2⟩ := udp_origin hn H hm
  exact ⟨q, genuine hs hx ho hz hp h1 (.inr rfl), h2⟩

/-- C98: with no other thread in between, a call does what `_phtx_ip4` does without thread switches (C10, C70). -/
theorem C98_alone4 (s : St) (arp : ArpLookup) (nd : NdLookup) (src dst : Ip4Address) (ttl : Nat) (c : L4) {stk : Stack} {st : TxStatus} {outs : List Outgoing}
    (H : phtxIp4 s.stack (fun _ => arp) src dst ttl c = (stk, .ok (st, outs))) :
    ∃ n, CameTo s (s.run (.ip4 arp src dst ttl c :: restOf s.jobs.length n arp nd)) stk st outs := by
  have hrun : ∀ n, s.run (.ip4 arp src dst ttl c :: restOf s.jobs.length n arp nd) = (s.began (begin4 s.stack arp src dst ttl c)).run (restOf s.jobs.length n arp nd) :=
    fun n => rfl
  simp only [hrun]
  rw [phtxIp4] at H
  rw [begin4]
  by_cases ht : 0 < ttl ∧ ttl < 256
  · rw [if_neg (by simpa using ht)] at H ⊢
    cases hv : validateSrcIp4 s.stack src dst c.kind with
    | error e => rw [hv] at H; cases H; exact ⟨0, began_inl s _ _ _ _ _ _⟩
    | ok a =>
    rw [hv] at H
    dsimp only at H ⊢
    cases hw : validateDstIp4 dst with
    | error e => rw [hw] at H; cases H; exact ⟨0, began_inl s _ _ _ _ _ _⟩
    | ok b =>
    rw [hw] at H
    dsimp only at H ⊢
    cases ha : (packetTx a b ttl c.proto).asserts with
    | error e => rw [ha] at H; cases H
    | ok u =>
    rw [ha] at H
    dsimp only at H ⊢
    by_cases hm : (packetTx a b ttl c.proto).hlen + c.len ≤ s.stack.mtu
    · rw [if_pos hm] at H ⊢
      cases hE : phtxEther s.stack arp (fun _ => none) .zero .zero (.ip4 (packetTx a b ttl c.proto) c.toCarried) with
      | error e => rw [hE] at H; cases H
      | ok r =>
        rw [hE] at H
        obtain ⟨r1, r2⟩ := r
        cases H
        exact ⟨0, began_inl s _ _ _ _ _ _⟩
    · rw [if_neg hm] at H ⊢
      split at H
      · cases H
      · rename_i frags hf
        rw [hf]
        dsimp only at H ⊢
        obtain ⟨h1, h2⟩ := Prod.mk.inj H
        obtain ⟨⟨sts, o⟩, h3, h4⟩ := py_bind_ok h2
        cases h4
        subst h1
        exact ⟨frags.length, began_inr (w := .v4 a b ttl c.proto) h3⟩
  · rw [if_pos ht] at H
    cases H

/-- C98: the same for `_phtx_ip6`. -/
theorem C98_alone6 (s : St) (arp : ArpLookup) (nd : NdLookup) (src dst : Ip6Address) (hop : Nat) (c : L4) {stk : Stack} {st : TxStatus} {outs : List Outgoing}
    (H : phtxIp6 s.stack (fun _ => nd) src dst hop c = (stk, .ok (st, outs))) :
    ∃ n, CameTo s (s.run (.ip6 nd src dst hop c :: restOf s.jobs.length n arp nd)) stk st outs := by
  have hrun : ∀ n, s.run (.ip6 nd src dst hop c :: restOf s.jobs.length n arp nd) = (s.began (begin6 s.stack nd src dst hop c)).run (restOf s.jobs.length n arp nd) :=
    fun n => rfl
  simp only [hrun]
  rw [phtxIp6] at H
  rw [begin6]
  cases hv : phtxIp6Small s.stack nd src dst hop c with
  | error e => rw [hv] at H; cases H
  | ok r =>
  rw [hv] at H
  cases r with
  | inl r =>
    obtain ⟨r1, r2⟩ := r
    cases H
    exact ⟨0, began_inl s _ _ _ _ _ _⟩
  | inr r =>
    obtain ⟨a, b⟩ := r
    dsimp only at H ⊢
    split at H
    · cases H
    · rename_i frags hf
      rw [hf]
      dsimp only at H ⊢
      obtain ⟨h1, h2⟩ := Prod.mk.inj H
      obtain ⟨⟨sts, o⟩, h3, h4⟩ := py_bind_ok h2
      cases h4
      subst h1
      exact ⟨frags.length, began_inr (w := .v6 a b c.proto) h3⟩

/-! ### Concrete cases -/

namespace Example.Senders

/-- What a thread does: it sends a datagram to port 53 of 10.0.1.7, 2001:db8::7 or 10.0.1.50, or goes on with one of its calls. -/
inductive Act
  | c4 (data : Bytes)
  | c6 (data : Bytes)
  | far (data : Bytes)
  | bump (k : Nat)
  | load (k : Nat)
  | store (k : Nat)
  /-- the next fragment -/
  | next (k : Nat)
  | stop (k : Nat)

def arp : ArpLookup := fun _ => some Example.stack.mac
def nd : NdLookup := fun _ => some Example.stack.mac
def dgram (data : Bytes) : L4 := { Udp.carried 5000 53 data with kind := .udp 5000 53 }
def elsewhere : Ip4Address := ⟨0x0A000132, by decide⟩

def Act.steps : Act → List Step
  | .c4 data => [.ip4 arp Example.Rx.peer4 Example.host4.address 64 (dgram data)]
  | .c6 data => [.ip6 nd Example.Rx.peer6 Example.host6.address 64 (dgram data)]
  | .far data => [.ip4 arp Example.Rx.peer4 elsewhere 64 (dgram data)]
  | .bump k => [.bump k]
  | .load k => [.load k]
  | .store k => [.store k]
  | .next k => [.build k, .emit k arp nd]
  | .stop k => [.build k]

def steps (as : List Act) : List Step := as.flatMap Act.steps

/-- 10.0.1.9 and 2001:db8::9, with an MTU of 64 bytes. -/
def s₀ : St := { stack := Example.EndToEnd.sender 64 }

theorem unused : Unused s₀ := ⟨rfl, rfl⟩

theorem called {as : List Act} {c : L4} (h : (∃ arp src dst ttl, .ip4 arp src dst ttl c ∈ steps as) ∨ ∃ nd src dst hop, .ip6 nd src dst hop c ∈ steps as) :
    ∃ data, c = dgram data ∧ (.c4 data ∈ as ∨ .c6 data ∈ as ∨ .far data ∈ as) := by
  have : ∃ a ∈ as, (∃ arp src dst ttl, .ip4 arp src dst ttl c ∈ a.steps) ∨ ∃ nd src dst hop, .ip6 nd src dst hop c ∈ a.steps := by
    rcases h with ⟨w, x, y, z, h⟩ | ⟨w, x, y, z, h⟩
    · obtain ⟨a, h1, h2⟩ := List.mem_flatMap.1 h; exact ⟨a, h1, .inl ⟨_, _, _, _, h2⟩⟩
    · obtain ⟨a, h1, h2⟩ := List.mem_flatMap.1 h; exact ⟨a, h1, .inr ⟨_, _, _, _, h2⟩⟩
  obtain ⟨a, ha, h⟩ := this
  cases a with
  | c4 data => exact ⟨data, by simpa [Act.steps] using h, .inl ha⟩
  | c6 data => exact ⟨data, by simpa [Act.steps] using h, .inr (.inl ha)⟩
  | far data => exact ⟨data, by simpa [Act.steps] using h, .inr (.inr ha)⟩
  | bump => simp [Act.steps] at h
  | load => simp [Act.steps] at h
  | store => simp [Act.steps] at h
  | next => simp [Act.steps] at h
  | stop => simp [Act.steps] at h

theorem sized (as : List Act) : Sized (steps as) := by
  intro c h
  obtain ⟨data, rfl, -⟩ := called h
  refine ⟨fun h => absurd (show (17 : Nat) = 44 from h) (by decide), fun _ ps q hq => ?_⟩
  obtain ⟨a, b, -⟩ := Udp.assemble_bytes hq
  exact ⟨a, b⟩

/-- What was handed over as UDP is one of the datagrams. -/
theorem handed {as : List Act} {dst : IpAddress} {q : Bytes} {sport dport : Nat} {data : Bytes} (h : Handed (steps as) dst 17 q) (hq : IsUdp q sport dport data) :
    .c4 data ∈ as ∨ .c6 data ∈ as ∨ .far data ∈ as := by
  have : ∃ c ps, ((∃ arp src dst ttl, .ip4 arp src dst ttl c ∈ steps as) ∨ ∃ nd src dst hop, .ip6 nd src dst hop c ∈ steps as) ∧ c.assemble ps = .ok q := by
    rcases h with ⟨_, _, _, _, c, ps, h, -, -, h'⟩ | ⟨_, _, _, _, c, ps, h, -, -, h'⟩
    · exact ⟨c, ps, .inl ⟨_, _, _, _, h⟩, h'⟩
    · exact ⟨c, ps, .inr ⟨_, _, _, _, h⟩, h'⟩
  obtain ⟨c, ps, h1, h2⟩ := this
  obtain ⟨data', rfl, h3⟩ := called h1
  obtain ⟨-, -, -, -, e⟩ := Udp.assemble_bytes h2
  obtain ⟨-, -, -, -, e'⟩ := hq
  rw [e', e]
  exact h3

theorem atOnce {as : List Act} (h : as.all (fun a => match a with | .load _ => false | _ => true) = true) : RaisedAtOnce (steps as) := by
  intro k hk
  obtain ⟨a, ha, hm⟩ := List.mem_flatMap.1 hk
  have := List.all_eq_true.1 h a ha
  cases a <;> simp [Act.steps] at hm this

def alive (s : St) (k : Nat) : Option Way := s.jobs[k]?.bind fun j => match j.pos with
  | .done _ => none
  | _ => some j.way

theorem underWay_iff {s : St} {k : Nat} {w : Way} : UnderWay s k w ↔ alive s k = some w := by
  rw [UnderWay, alive]
  cases s.jobs[k]? with
  | none => simp
  | some j =>
    obtain ⟨w', f, p, i, o, l⟩ := j
    cases p <;> simp

/-- At no moment two calls to the same address. -/
def single (s : St) (xs : List Step) : Bool := (List.range (xs.length + 1)).all fun n =>
  let t := s.run (xs.take n)
  (List.range t.jobs.length).all fun k => (List.range t.jobs.length).all fun k' => match alive t k, alive t k' with
    | some w, some w' => goal w != goal w' || k == k'
    | _, _ => true

theorem alive_lt {s : St} {k : Nat} {w : Way} (h : alive s k = some w) : k < s.jobs.length := by
  refine Classical.byContradiction fun hn => ?_
  rw [alive, List.getElem?_eq_none (by omega)] at h
  cases h

theorem single_ok {s : St} {xs : List Step} (h : single s xs = true) : OneAtATime s xs := by
  intro ys hy k w k' w' h1 h2 hg
  rw [underWay_iff] at h1 h2
  have hy' := List.prefix_iff_eq_take.1 hy
  have hl := hy.length_le
  have a := List.all_eq_true.1 h ys.length (List.mem_range.2 (by omega))
  dsimp only at a
  rw [← hy'] at a
  have b := List.all_eq_true.1 (List.all_eq_true.1 a k (List.mem_range.2 (alive_lt h1))) k' (List.mem_range.2 (alive_lt h2))
  rw [h1, h2] at b
  simpa [hg] using b

/-- At no moment both `k` and `k'`. -/
def apart (s : St) (xs : List Step) (k k' : Nat) : Bool := (List.range (xs.length + 1)).all fun n =>
  (alive (s.run (xs.take n)) k).isNone || (alive (s.run (xs.take n)) k').isNone

theorem apart_ok {s : St} {xs : List Step} {k k' : Nat} (h : apart s xs k k' = true) (w w' : Way) : ¬ Overlap s xs k w k' w' := by
  rintro ⟨ys, hy, h1, h2⟩
  rw [underWay_iff] at h1 h2
  have hy' := List.prefix_iff_eq_take.1 hy
  have hl := hy.length_le
  have a := List.all_eq_true.1 h ys.length (List.mem_range.2 (by omega))
  rw [← hy', h1, h2] at a
  cases a

/-- What 10.0.1.7 (2001:db8::7), with its sockets at port 53, makes of these frames: the payloads that it gives to sockets at each. -/
def given (n : Node) (fs : List Bytes) : List (Option (List Bytes)) :=
  (receiveAll 1 n (fs.map fun F => ⟨0, 0, F, n.socks⟩)).map fun r => match r with
    | .ok effs => some (effs.filterMap fun e => match e with | .udpDeliver _ m => some m.data | _ => none)
    | .error _ => none

/-- The receiver after these frames. -/
def after (fs : List Bytes) : Node := fs.foldl (fun n F => (Rx.ether n 0 0 1 F).1) Example.EndToEnd.receiver

theorem after_received (fs : List Bytes) : Received fs (after fs) := by
  induction fs using List.reverseRecOn with
  | nil => exact .start _ rfl rfl
  | append_singleton fs F ih =>
    refine .frame 0 0 1 F ih ?_ ?_ <;> rw [after, List.foldl_append] <;> rfl

def wire (as : List Act) : List Bytes := frames ((s₀.run (steps as)).out.map (·.2))

/-- Two datagrams of 52 bytes to 10.0.1.7, one after the other, each in two fragments, and one over IPv6 in between. -/
def a : Bytes := List.replicate 32 1 ++ [0, 1, 0, 2] ++ List.replicate 16 0
def b : Bytes := List.replicate 32 2 ++ [0, 2, 0, 1] ++ List.replicate 16 0
def fine : List Act :=
  [.c4 a, .c6 a, .bump 0, .next 0, .bump 1, .next 1, .next 1, .next 0, .stop 0, .c4 b, .next 1, .bump 2, .next 2, .next 1, .stop 1, .next 2, .stop 2, .far [1]]

/-- Two datagrams to 10.0.1.7 at the same time. -/
def mixed : List Act := [.c4 a, .c4 b, .bump 0, .bump 1, .next 0, .next 1, .next 0, .next 1, .stop 0, .stop 1]
/-- One to 10.0.1.7, and while it is being sent one to 10.0.1.50. -/
def lost : List Act := [.c4 a, .bump 0, .next 0, .far b, .bump 1, .next 1, .next 1, .next 0, .stop 0, .stop 1]
/-- The thread of the first call loses the processor while it raises the counter; the other calls come one after the other. -/
def reused : List Act := [.c4 a, .load 0, .c4 a, .bump 1, .next 1, .next 1, .stop 1, .c4 b, .bump 2, .next 2, .next 2, .stop 2, .store 0, .next 0, .next 0, .stop 0,
  .c4 a, .bump 3, .next 3, .next 3, .stop 3]

/-- The socket, and the datagram. -/
def delivered (x : Py (List Eff)) : Option (Nat × UdpMd) := match x with
  | .ok [.udpDeliver r m] => some (r, m)
  | _ => none

theorem delivered_ok {n : Node} {F : Bytes} {r : Nat} {m : UdpMd} (h : delivered (Rx.ether n 0 0 1 F).2 = some (r, m)) :
    ∃ n' l, Rx.ether n 0 0 1 F = (n', .ok l) ∧ .udpDeliver r m ∈ l := by
  unfold delivered at h
  split at h
  · rename_i r' m' hx
    cases h
    exact ⟨_, _, by rw [← hx], List.mem_singleton.2 rfl⟩
  · cases h

def md (data : Bytes) : UdpMd := ⟨.v4 Example.host4.address, 53, .v4 Example.Rx.peer4, 5000, data⟩
def md6 (data : Bytes) : UdpMd := ⟨.v6 Example.host6.address, 53, .v6 Example.Rx.peer6, 5000, data⟩

/-- C98_genuine_partial: the hypotheses hold, and datagrams are given to sockets. -/
example : Unused s₀ ∧ RaisedAtOnce (steps fine) ∧ OneAtATime s₀ (steps fine) ∧ Sized (steps fine) ∧
    (∃ n' l r, Rx.ether (after ((wire fine).take 3)) 0 0 1 ((wire fine).getD 3 []) = (n', .ok l) ∧ .udpDeliver r (md a) ∈ l) ∧
    (∃ n' l r, Rx.ether (after ((wire fine).take 6)) 0 0 1 ((wire fine).getD 6 []) = (n', .ok l) ∧ .udpDeliver r (md6 a) ∈ l) ∧
    (∃ n' l r, Rx.ether (after ((wire fine).take 7)) 0 0 1 ((wire fine).getD 7 []) = (n', .ok l) ∧ .udpDeliver r (md b) ∈ l) := by
  refine ⟨unused, atOnce (by decide), single_ok (by decide +kernel), sized _, ?_, ?_, ?_⟩
  · obtain ⟨n', l, h⟩ := delivered_ok (r := 0) (m := md a) (show delivered (Rx.ether (after ((wire fine).take 3)) 0 0 1 ((wire fine).getD 3 [])).2 = _ by decide +kernel)
    exact ⟨n', l, 0, h⟩
  · obtain ⟨n', l, h⟩ := delivered_ok (r := 1) (m := md6 a) (show delivered (Rx.ether (after ((wire fine).take 6)) 0 0 1 ((wire fine).getD 6 [])).2 = _ by decide +kernel)
    exact ⟨n', l, 1, h⟩
  · obtain ⟨n', l, h⟩ := delivered_ok (r := 0) (m := md b) (show delivered (Rx.ether (after ((wire fine).take 7)) 0 0 1 ((wire fine).getD 7 [])).2 = _ by decide +kernel)
    exact ⟨n', l, 0, h⟩

/-- C98_own_id_partial: the first and the third call, over IPv4, do not overlap. -/
example : (s₀.run (steps fine)).jobs.length = 3 ∧ apart s₀ (steps fine) 0 2 = true ∧
    (queuedBy (s₀.run (steps fine)) 0).map (·.1) = [1, 1] ∧ (queuedBy (s₀.run (steps fine)) 1).map (·.1) = [1, 1, 1, 1] ∧
    (queuedBy (s₀.run (steps fine)) 2).map (·.1) = [2, 2] := by decide +kernel

/-- C98_alone4, C98_alone6: calls that send two and four fragments. -/
example : (phtxIp4 s₀.stack (fun _ => arp) Example.Rx.peer4 Example.host4.address 64 (dgram a)).2.map (fun r => (r.1, r.2.length)) = .ok (.passedEtherToTxRing, 2) ∧
    (phtxIp6 s₀.stack (fun _ => nd) Example.Rx.peer6 Example.host6.address 64 (dgram a)).2.map (fun r => (r.1, r.2.length)) = .ok (.passedEtherToTxRing, 4) := by
  decide +kernel

end Example.Senders

open Example.Senders in
/-- C98 is false of the code: two threads send a datagram each to the same address, in fragments; both calls report success; and a socket there
is given a datagram that nobody sent. -/
theorem C98_mixed : ∃ (s : St) (xs : List Step) (past : List Bytes) (F : Bytes) (n n' : Node) (l : List Eff) (r : Nat) (m : UdpMd),
    Unused s ∧ RaisedAtOnce xs ∧ Sized xs ∧
    (∀ j ∈ (s.run xs).jobs, j.pos = .done (.ok .passedEtherToTxRing)) ∧
    (∀ G ∈ past ++ [F], G ∈ frames ((s.run xs).out.map (·.2))) ∧ Received past n ∧
    Rx.ether n 0 0 1 F = (n', .ok l) ∧ .udpDeliver r m ∈ l ∧ ¬ ∃ q, Handed xs m.lip 17 q ∧ IsUdp q m.rport m.lport m.data := by
  let d : Bytes := List.replicate 32 2 ++ [0, 1, 0, 2] ++ List.replicate 16 0
  obtain ⟨n', l, h1, h2⟩ := delivered_ok (r := 0) (m := md d)
    (show delivered (Rx.ether (after ((wire mixed).take 2)) 0 0 1 ((wire mixed).getD 2 [])).2 = _ by decide +kernel)
  refine ⟨s₀, steps mixed, (wire mixed).take 2, (wire mixed).getD 2 [], _, n', l, 0, md d, unused, atOnce (by decide), sized _, ?_, ?_, after_received _, h1, h2, ?_⟩
  · have : ((s₀.run (steps mixed)).jobs.all fun j => match j.pos with | .done (.ok .passedEtherToTxRing) => true | _ => false) = true := by decide +kernel
    intro j hj
    have := List.all_eq_true.1 this j hj
    revert this
    generalize j.pos = p
    intro h
    split at h
    · rfl
    · cases h
  · intro G hG
    have : ∀ G ∈ (wire mixed).take 2 ++ [(wire mixed).getD 2 []], G ∈ wire mixed := by decide +kernel
    exact this G hG
  · rintro ⟨q, hq, hu⟩
    have := handed hq hu
    simp only [mixed, List.mem_cons, Act.c4.injEq, reduceCtorEq, List.not_mem_nil, or_false, false_or, or_self] at this
    revert this
    decide +kernel

open Example.Senders in
/-- C98 is false of the code: while a datagram is sent in fragments to one address, another thread sends one to another address; both calls report
success, and the first datagram has fragments with different identifications: though all the frames arrive, in order, at the receiver, which has
the address and a socket bound to the port, it does not get it. -/
theorem C98_lost : ∃ (s : St) (xs : List Step) (x y : Nat × Outgoing) (q : Bytes) (n : Node) (m : UdpMd),
    Unused s ∧ RaisedAtOnce xs ∧ OneAtATime s xs ∧ Sized xs ∧ (∀ j ∈ (s.run xs).jobs, j.pos = .done (.ok .passedEtherToTxRing)) ∧
    queuedBy (s.run xs) 0 = [x, y] ∧ x.1 ≠ y.1 ∧
    Handed xs m.lip 17 q ∧ IsUdp q m.rport m.lport m.data ∧ Listens4 n Example.host4.address ∧ m.lip = .v4 Example.host4.address ∧ n.socks.match? m = some 0 ∧
    receiveAll 1 n ((frames ((s.run xs).out.map (·.2))).map fun F => ⟨0, 0, F, n.socks⟩) = [.ok [], .ok [], .ok [], .ok []] := by
  have hp : ((s₀.run (steps lost)).jobs.all fun j => match j.pos with | .done (.ok .passedEtherToTxRing) => true | _ => false) = true := by decide +kernel
  have hq : (match queuedBy (s₀.run (steps lost)) 0 with | [x, y] => x.1 != y.1 | _ => false) = true := by decide +kernel
  have hd : ∃ q, (dgram a).assemble 0 = .ok q := by
    cases h : (dgram a).assemble 0 with
    | ok q => exact ⟨q, rfl⟩
    | error e =>
      have : (match (dgram a).assemble 0 with | .ok _ => true | .error _ => false) = true := by decide +kernel
      rw [h] at this
      cases this
  have hr : ((receiveAll 1 Example.EndToEnd.receiver ((wire lost).map fun F => ⟨0, 0, F, Example.EndToEnd.receiver.socks⟩)).map fun r => match r with
      | .ok [] => true | _ => false) = [true, true, true, true] := by decide +kernel
  split at hq
  · rename_i x y hxy
    obtain ⟨q, h⟩ := hd
    obtain ⟨a1, a2, a3, a4, a5⟩ := Udp.assemble_bytes h
    refine ⟨s₀, steps lost, x, y, q, Example.EndToEnd.receiver, md a, unused, atOnce (by decide), single_ok (by decide +kernel), sized _, ?_, hxy,
      by simpa using hq, .inl ⟨arp, Example.Rx.peer4, Example.host4.address, 64, dgram a, 0, List.mem_flatMap.2 ⟨.c4 a, .head _, .head _⟩, rfl, rfl, h⟩,
      ⟨by omega, ?_, a3, a4, a5.symm⟩, .inl ⟨Example.host4, by decide, rfl⟩, rfl, by decide +kernel, ?_⟩
    · intro j hj
      have := List.all_eq_true.1 hp j hj
      revert this
      generalize j.pos = p
      intro h
      split at h
      · rfl
      · cases h
    · have : (match (dgram a).assemble 0 with | .ok q => be q 4 2 == q.length | .error _ => false) = true := by decide +kernel
      rw [h] at this
      simpa using this
    · revert hr
      rw [show frames ((s₀.run (steps lost)).out.map (·.2)) = wire lost from rfl]
      generalize receiveAll 1 Example.EndToEnd.receiver ((wire lost).map fun F => ⟨0, 0, F, Example.EndToEnd.receiver.socks⟩) = l
      intro hr
      have key : ∀ (l : List (Py (List Eff))) n, (l.map fun r => match r with | .ok [] => true | _ => false) = List.replicate n true → l = List.replicate n (.ok []) := by
        intro l
        induction l with
        | nil => intro n h; cases n with
          | zero => rfl
          | succ n => cases h
        | cons r l ih => intro n h; cases n with
          | zero => cases h
          | succ n =>
            rw [List.map_cons, List.replicate_succ] at h
            obtain ⟨h1, h2⟩ := List.cons.inj h
            rw [ih n h2, List.replicate_succ]
            split at h1
            · rfl
            · cases h1
      exact key l 4 hr
  · cases hq

open Example.Senders in
/-- C98 is false of the code if a thread may lose the processor in the statement that raises the counter (between reading and writing it): then two
calls to the same address use the same identification, although one began after the other had returned. -/
theorem C98_reused : ∃ (s : St) (xs : List Step) (k k' : Nat) (j j' : Job),
    Unused s ∧ Sized xs ∧ k ≠ k' ∧ (s.run xs).jobs[k]? = some j ∧ (s.run xs).jobs[k']? = some j' ∧ goal j.way = goal j'.way ∧
    (∀ w w', ¬ Overlap s xs k w k' w') ∧ ∃ x ∈ queuedBy (s.run xs) k, ∃ y ∈ queuedBy (s.run xs) k', x.1 = y.1 := by
  have h : (match (s₀.run (steps reused)).jobs[2]?, (s₀.run (steps reused)).jobs[3]? with
      | some j, some j' => goal j.way == goal j'.way
      | _, _ => false) = true := by decide +kernel
  have hq : ((queuedBy (s₀.run (steps reused)) 2).any fun x => (queuedBy (s₀.run (steps reused)) 3).any fun y => x.1 == y.1) = true := by decide +kernel
  split at h
  · rename_i j j' h1 h2
    obtain ⟨x, hx, hy⟩ := List.any_eq_true.1 hq
    obtain ⟨y, hy, he⟩ := List.any_eq_true.1 hy
    exact ⟨s₀, steps reused, 2, 3, j, j', unused, sized _, by decide, h1, h2, by simpa using h, apart_ok (by decide +kernel), x, hx, y, hy, by simpa using he⟩
  · cases h

end Verif
