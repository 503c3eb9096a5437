import Verif.Lemmas.Senders
/-! What is put together from the fragments that several threads sent. -/
namespace Verif
open Spec

theorem made4_to {past : List Bytes} {src dst : Ip4Address} {proto : Nat} {p : Bytes} (h : Made4 past src dst proto p) :
    Made4 (past.filter fun F => be F 30 4 = dst.int) src dst proto p := by
  have key : ∀ F ∈ past, ∀ pr q, Ip4Fields (F.drop 14) src dst pr q → F ∈ past.filter fun F => be F 30 4 = dst.int := by
    intro F hF pr q hf
    refine List.mem_filter.2 ⟨hF, ?_⟩
    simp only [decide_eq_true_eq]
    rw [hf.hasDst, be_drop]
  rcases h with ⟨F, hF, ht, hq⟩ | ⟨id, ps, ⟨F, hF, ht, off, more, x, hf⟩, ⟨q, hq, F', hF', ht', pr', x', hf'⟩, hall, ha⟩
  · exact .inl ⟨F, key F hF _ _ hq.1, ht, hq⟩
  · refine .inr ⟨id, ps, ⟨F, key F hF _ _ hf.1, ht, off, more, x, hf⟩, ⟨q, hq, F', key F' hF' _ _ hf'.1, ht', pr', x', hf'⟩, ?_, ha⟩
    intro q hq
    obtain ⟨F, hF, ht, pr, more, hf⟩ := hall q hq
    exact ⟨F, key F hF _ _ hf.1, ht, pr, more, hf⟩

theorem made6_to {past : List Bytes} {g : Bytes} (h : Made6 past g) : ∀ {src dst : Ip6Address} {hop next : Nat} {p : Bytes}, Ip6Packet g src dst hop next p →
    Made6 (past.filter fun F => be F 38 16 = dst.int) g := by
  induction h with
  | frame F hF ht =>
    intro src dst hop next p hp
    refine .frame F (List.mem_filter.2 ⟨hF, ?_⟩) ht
    simp only [decide_eq_true_eq]
    rw [hp.hasDst, be_drop]
  | whole ps hpk hq hqf hq' hqf' hend hall hfr ha ih1 ih2 ih3 =>
    intro src dst hop next p hp
    obtain ⟨rfl, rfl, rfl, rfl⟩ := hpk.same hp
    obtain ⟨hop1, p1, j1, j1'⟩ := hqf
    obtain ⟨hop2, p2, j2, j2'⟩ := hqf'
    refine .whole ps hpk (ih1 j1) ⟨hop1, p1, j1, j1'⟩ (ih2 j2) ⟨hop2, p2, j2, j2'⟩ hend ?_ hfr ha
    intro y hy
    obtain ⟨nx, more, hop3, p3, j3, -⟩ := hfr y hy
    exact ih3 y hy j3

namespace Senders

/-- The data a call cut up. -/
theorem Source.data {xs : List Step} {j : Job} (h : Source xs j) :
    (∃ room, IsFragmentation j.frags.flatten room (piecesOf 0 j.frags)) ∧ ToldToSend xs j.frags.flatten j.way := by
  obtain ⟨e, he, hs⟩ := h
  have key : ∀ {data : Bytes} {m : Nat}, m % 8 = 0 → dataFrags data m = .ok j.frags →
      data = j.frags.flatten ∧ IsFragmentation j.frags.flatten m (piecesOf 0 j.frags) := by
    intro data m hm hd
    have := isFragmentation data m m j.frags hm (Nat.le_refl _) hd
    have hc := this.concat
    rw [piecesOf_data] at hc
    subst hc
    exact ⟨rfl, this⟩
  cases e with
  | ip4 arp src dst ttl c =>
    obtain ⟨a, ps, data, m, h1, h2, h3, h4⟩ := hs
    obtain ⟨rfl, hf⟩ := key h3 h4
    refine ⟨⟨m, hf⟩, ?_⟩
    rw [h1]
    exact ⟨arp, src, c, ps, he, rfl, h2⟩
  | ip6 nd src dst hop c =>
    obtain ⟨a, ps, data, m, h1, h2, h3, h4⟩ := hs
    obtain ⟨rfl, hf⟩ := key h3 h4
    refine ⟨⟨m, hf⟩, ?_⟩
    rw [h1]
    exact ⟨nd, src, hop, c, ps, he, rfl, h2⟩
  | bump => cases hs
  | load => cases hs
  | store => cases hs
  | build => cases hs
  | emit => cases hs

/-- The datagram with this identification, among those to `dst`. -/
def Is4 (s : St) (dst : Ip4Address) (id : Nat) (g : Dg Ip4Address) : Prop :=
  ∃ (k : Nat) (j : Job) (o : Outgoing) (ttl : Nat), (some (k, id), o) ∈ s.out ∧ s.jobs[k]? = some j ∧ j.way = .v4 g.src dst ttl g.proto ∧ g.dst = dst ∧
    g.payload = j.frags.flatten ∧ g.ps = piecesOf 0 j.frags

def Is6 (s₀ : Stack) (s : St) (dst : Ip6Address) (id : Nat) (g : Dg Ip6Address) : Prop :=
  ∃ (k : Nat) (j : Job) (o : Outgoing) (src : Ip6Address), (some (k, id), o) ∈ s.out ∧ s.jobs[k]? = some j ∧ j.way = .v6 src dst g.proto ∧
    validateSrcIp6 s₀ src dst .other = .ok g.src ∧ g.dst = dst ∧ g.payload = j.frags.flatten ∧ g.ps = piecesOf 0 j.frags

/-- Two calls to the same address that used the same identification are one. -/
theorem same_call {s₀ : St} {xs : List Step} (h : Apt s₀ xs (s₀.run xs)) (ho : OneAtATime s₀ xs) {k k' id : Nat} {j j' : Job} {o o' : Outgoing}
    (h1 : (some (k, id), o) ∈ (s₀.run xs).out) (h2 : (some (k', id), o') ∈ (s₀.run xs).out) (hj : (s₀.run xs).jobs[k]? = some j)
    (hj' : (s₀.run xs).jobs[k']? = some j') (hg : goal j.way = goal j'.way) : k = k' := by
  refine Classical.byContradiction fun hne => ?_
  have hv : j.way.v = j'.way.v := by
    revert hg
    cases j.way <;> cases j'.way <;> simp [goal, Way.v]
  obtain ⟨ys, a1, a2, a3⟩ := h.two k k' id j j' hj hj' hv (.inl ⟨o, h1⟩) (.inl ⟨o', h2⟩) hne
  exact hne (ho ys a1 k _ k' _ a2 a3 hg)

theorem Is4.unique {s₀ : St} {xs : List Step} (h : Apt s₀ xs (s₀.run xs)) (ho : OneAtATime s₀ xs) {dst : Ip4Address} {id : Nat} {g g' : Dg Ip4Address}
    (hg : Is4 (s₀.run xs) dst id g) (hg' : Is4 (s₀.run xs) dst id g') : g = g' := by
  obtain ⟨k, j, o, ttl, a1, a2, a3, a4, a5, a6⟩ := hg
  obtain ⟨k', j', o', ttl', b1, b2, b3, b4, b5, b6⟩ := hg'
  have := same_call h ho a1 b1 a2 b2 (by rw [a3, b3]; rfl)
  subst this
  rw [a2] at b2
  cases b2
  rw [a3] at b3
  obtain ⟨s, d, p, q, r⟩ := g
  obtain ⟨s', d', p', q', r'⟩ := g'
  simp only [Way.v4.injEq] at b3 a4 b4 a5 b5 a6 b6
  rw [a4, b4, a5, b5, a6, b6, b3.1, b3.2.2.2]

theorem Is6.unique {s₀ : St} {xs : List Step} (h : Apt s₀ xs (s₀.run xs)) (ho : OneAtATime s₀ xs) {dst : Ip6Address} {id : Nat} {g g' : Dg Ip6Address}
    (hg : Is6 s₀.stack (s₀.run xs) dst id g) (hg' : Is6 s₀.stack (s₀.run xs) dst id g') : g = g' := by
  obtain ⟨k, j, o, src, a1, a2, a3, a3', a4, a5, a6⟩ := hg
  obtain ⟨k', j', o', src', b1, b2, b3, b3', b4, b5, b6⟩ := hg'
  have := same_call h ho a1 b1 a2 b2 (by rw [a3, b3]; rfl)
  subst this
  rw [a2] at b2
  cases b2
  rw [a3] at b3
  obtain ⟨s, d, p, q, r⟩ := g
  obtain ⟨s', d', p', q', r'⟩ := g'
  simp only [Way.v6.injEq] at b3 a4 b4 a5 b5 a6 b6 a3' b3'
  obtain ⟨rfl, -, rfl⟩ := b3
  rw [a3'] at b3'
  cases b3'
  rw [a4, b4, a5, b5, a6, b6]

theorem ofUnique {A : Type} (d₀ : Dg A) (Q : Nat → Dg A → Prop) (h : ∀ id g g', Q id g → Q id g' → g = g') : ∃ d : Nat → Dg A, ∀ id g, Q id g → d id = g := by
  classical
  refine ⟨fun id => if h : ∃ g, Q id g then Classical.choose h else d₀, fun id g hg => ?_⟩
  have hex : ∃ g, Q id g := ⟨g, hg⟩
  dsimp only
  rw [dif_pos hex]
  exact h id _ _ (Classical.choose_spec hex) hg

/-- What the frames queued bring a receiver, some call has handed to the IP layer. -/
theorem genuine {s₀ : St} {xs : List Step} (h₀ : Unused s₀) (hx : RaisedAtOnce xs) (ho : OneAtATime s₀ xs) (hz : Sized xs) {past : List Bytes}
    {src dst : IpAddress} {proto : Nat} {payload : Bytes}
    (hp : ∀ F ∈ past, SaysFrom F src → F ∈ frames ((s₀.run xs).out.map (·.2))) (hb : Brought past src dst proto payload)
    (hr : Real proto) : Handed xs dst proto payload := by
  have hA := apt h₀ xs hx
  have hS := sound h₀ xs
  have src4 : ∀ {k : Nat} {j : Job} {id : Nat} {o : Outgoing}, (some (k, id), o) ∈ (s₀.run xs).out → (s₀.run xs).jobs[k]? = some j → Source xs j :=
    fun _ hj => (hS.jobs _ (List.mem_of_getElem? hj)).1
  cases hb with
  | @v4 src dst proto payload hm _ =>
    obtain ⟨d, hd⟩ := ofUnique ⟨dst, dst, 0, [], []⟩ (Is4 (s₀.run xs) dst) (fun id g g' a b => a.unique hA ho b)
    refine made4_genuine (S := fun _ dst proto p => Handed xs dst proto p) (n := (s₀.run xs).stack.ip4Id) (d := d)
      (wire := (frames ((s₀.run xs).out.map (·.2))).filter fun F => be F 30 4 = dst.int) ?_ ?_ (made4_to hm) hr
    · intro F hF ht ha
      obtain ⟨h1, h2⟩ := List.mem_filter.1 hF
      exact List.mem_filter.2 ⟨hp F h1 ⟨ht, ha⟩, h2⟩
    · intro F hF
      obtain ⟨hF, hdst⟩ := List.mem_filter.1 hF
      simp only [decide_eq_true_eq] at hdst
      obtain ⟨o, hmo, hf⟩ := mem_frames hF
      obtain ⟨⟨tag, o'⟩, hm', rfl⟩ := List.mem_map.1 hmo
      dsimp only at hf
      cases tag with
      | none =>
        obtain ⟨e, he, hdir⟩ := hS.whole o' hm'
        cases e with
        | ip4 arp src' dst' ttl c =>
          obtain ⟨a, hpk⟩ := hdir
          have hc := hz c (.inl ⟨_, _, _, _, he⟩)
          exact (good_whole4 hpk hf (fun hr a ps q hq => ⟨(hc.2 hr ps q hq).1, .inl ⟨arp, src', dst', ttl, c, ps, he, rfl, rfl, hq⟩⟩)).1
        | ip6 nd src' dst' hop c =>
          obtain ⟨a, hpk⟩ := hdir
          have hc := hz c (.inr ⟨_, _, _, _, he⟩)
          exact .other (good_whole6 (S := fun _ dst proto p => Handed xs dst proto p) (n := 0) (d := fun _ => ⟨.zero, .zero, 0, [], []⟩) hpk hf hc.1
            (fun hr a ps q hq => .inr ⟨nd, src', dst', hop, c, ps, he, rfl, rfl, hq⟩)).2
        | bump => cases hdir
        | load => cases hdir
        | store => cases hdir
        | build => cases hdir
        | emit => cases hdir
      | some tag =>
        obtain ⟨k, id⟩ := tag
        obtain ⟨j, hj, f, hfm, hmd⟩ := hS.frag k id o' hm'
        obtain ⟨j', hj', hle, -⟩ := hA.used k id (.inl ⟨o', hm'⟩)
        rw [hj] at hj'
        cases hj'
        obtain ⟨⟨room, hfr⟩, htold⟩ := (src4 hm' hj).data
        cases hw : j.way with
        | v4 src' dst' ttl pr =>
          rw [hw] at hmd hle htold
          obtain ⟨b, hb, hfb⟩ := frame_inv hf
          rw [show o'.pkt = _ from hmd] at hb
          obtain ⟨H, -⟩ := Ip4.assembleFrag_bytes (h := fragTx src' dst' ttl id pr f.offset f.mf) rfl hb
          have hdd : dst' = dst := by
            have h16 := H.b16
            rw [← hfb.hasPayload, be_drop, hdst] at h16
            exact (Ip4Address.ext' h16).symm
          subst hdd
          have hdg := hd id ⟨src', dst', pr, j.frags.flatten, piecesOf 0 j.frags⟩ ⟨k, j, o', ttl, hm', hj, hw, rfl, rfl, rfl⟩
          obtain ⟨arp, src'', c, ps, he, rfl, hq⟩ := htold
          have hc := hz c (.inl ⟨_, _, _, _, he⟩)
          exact (good_frag4 (S := fun _ dst proto p => Handed xs dst proto p) hmd hf hle hdg hfm hfr
            (fun hr => ⟨(hc.2 hr ps _ hq).2, .inl ⟨arp, src'', dst', ttl, c, ps, he, rfl, rfl, hq⟩⟩)).1
        | v6 src' dst' nx =>
          rw [hw] at hmd htold
          obtain ⟨-, a, -, hpk⟩ := hmd
          obtain ⟨nd, src'', hop, c, ps, he, rfl, hq⟩ := htold
          have hc := hz c (.inr ⟨_, _, _, _, he⟩)
          exact .other (good_frag6 (S := fun _ dst proto p => Handed xs dst proto p) (n := id)
            (d := fun _ => ⟨a, dst', c.proto, j.frags.flatten, piecesOf 0 j.frags⟩) hpk hf hc.1 (Nat.le_refl _) rfl hfm hfr
            (fun hr => .inr ⟨nd, src'', dst', hop, c, ps, he, rfl, rfl, hq⟩)).2
  | @v6 src dst hop next g payload hm hpk _ =>
    obtain ⟨d, hd⟩ := ofUnique ⟨dst, dst, 0, [], []⟩ (Is6 s₀.stack (s₀.run xs) dst) (fun id g g' a b => a.unique hA ho b)
    refine (made6_genuine (S := fun _ dst proto p => Handed xs dst proto p) (n := (s₀.run xs).stack.ip6Id) (d := d)
      (wire := (frames ((s₀.run xs).out.map (·.2))).filter fun F => be F 38 16 = dst.int) ?_ ?_ (made6_to hm hpk) _ _ _ _ hpk).1 hr
    · intro F hF ht ha
      obtain ⟨h1, h2⟩ := List.mem_filter.1 hF
      exact List.mem_filter.2 ⟨hp F h1 ⟨ht, ha⟩, h2⟩
    · intro F hF
      obtain ⟨hF, hdst⟩ := List.mem_filter.1 hF
      simp only [decide_eq_true_eq] at hdst
      obtain ⟨o, hmo, hf⟩ := mem_frames hF
      obtain ⟨⟨tag, o'⟩, hm', rfl⟩ := List.mem_map.1 hmo
      dsimp only at hf
      cases tag with
      | none =>
        obtain ⟨e, he, hdir⟩ := hS.whole o' hm'
        cases e with
        | ip4 arp src' dst' ttl c =>
          obtain ⟨a, hpk⟩ := hdir
          have hc := hz c (.inl ⟨_, _, _, _, he⟩)
          exact .other (good_whole4 (S := fun _ dst proto p => Handed xs dst proto p) (n := 0) (d := fun _ => ⟨.zero, .zero, 0, [], []⟩) hpk hf
            (fun hr a ps q hq => ⟨(hc.2 hr ps q hq).1, .inl ⟨arp, src', dst', ttl, c, ps, he, rfl, rfl, hq⟩⟩)).2
        | ip6 nd src' dst' hop c =>
          obtain ⟨a, hpk⟩ := hdir
          have hc := hz c (.inr ⟨_, _, _, _, he⟩)
          exact (good_whole6 hpk hf hc.1 (fun hr a ps q hq => .inr ⟨nd, src', dst', hop, c, ps, he, rfl, rfl, hq⟩)).1
        | bump => cases hdir
        | load => cases hdir
        | store => cases hdir
        | build => cases hdir
        | emit => cases hdir
      | some tag =>
        obtain ⟨k, id⟩ := tag
        obtain ⟨j, hj, f, hfm, hmd⟩ := hS.frag k id o' hm'
        obtain ⟨j', hj', hle, -⟩ := hA.used k id (.inl ⟨o', hm'⟩)
        rw [hj] at hj'
        cases hj'
        obtain ⟨⟨room, hfr⟩, htold⟩ := (src4 hm' hj).data
        cases hw : j.way with
        | v4 src' dst' ttl pr =>
          rw [hw] at hmd htold
          obtain ⟨arp, src'', c, ps, he, rfl, hq⟩ := htold
          have hc := hz c (.inl ⟨_, _, _, _, he⟩)
          exact .other (good_frag4 (S := fun _ dst proto p => Handed xs dst proto p) (n := id)
            (d := fun _ => ⟨src', dst', c.proto, j.frags.flatten, piecesOf 0 j.frags⟩) hmd hf (Nat.le_refl _) rfl hfm hfr
            (fun hr => ⟨(hc.2 hr ps _ hq).2, .inl ⟨arp, src'', dst', ttl, c, ps, he, rfl, rfl, hq⟩⟩)).2
        | v6 src' dst' nx =>
          rw [hw] at hmd hle htold
          obtain ⟨-, a, hva, hpk'⟩ := hmd
          obtain ⟨b, hb, hfb⟩ := frame_inv hf
          rw [hpk'] at hb
          obtain ⟨ps', q', -, H⟩ := Ip6.assemble_bytes (h := packetTx6 a dst' 64) (c := Ip6Frag.carried nx f.offset f.mf id f.data) hb
          have hdd : dst' = dst := by
            have h16 := H.b24
            rw [← hfb.hasPayload, be_drop, hdst] at h16
            exact (Ip6Address.ext' h16).symm
          subst hdd
          have hdg := hd id ⟨a, dst', nx, j.frags.flatten, piecesOf 0 j.frags⟩ ⟨k, j, o', src', hm', hj, hw, hva, rfl, rfl, rfl⟩
          obtain ⟨nd, src'', hop', c, ps, he, rfl, hq⟩ := htold
          have hc := hz c (.inr ⟨_, _, _, _, he⟩)
          exact (good_frag6 (S := fun _ dst proto p => Handed xs dst proto p) hpk' hf hc.1 hle hdg hfm hfr
            (fun hr => .inr ⟨nd, src'', dst', hop', c, ps, he, rfl, rfl, hq⟩)).1

end Senders
end Verif
