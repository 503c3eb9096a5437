import Verif.Model.Socket
import Verif.Lemmas.Py
/-! Which exceptions the transmit side can raise: never those that the socket layer uses to report something. -/
namespace Verif

/-- Exceptions from packing, assertions and address formats. -/
def PyErr.internal : PyErr → Bool
  | .structError | .assertionError | .valueError | .formatError | .nonTermination => true
  | _ => false

/-- If it raises, it raises one of these. -/
def Tame {α : Type} (x : Py α) : Prop := ∀ e, x = .error e → e.internal = true

namespace Tame

theorem ok {α : Type} (a : α) : Tame (.ok a : Py α) := by intro e h; cases h

theorem err {α : Type} {e : PyErr} (h : e.internal = true) : Tame (.error e : Py α) := by
  intro e' h'; cases h'; exact h

theorem bind {α β : Type} {x : Py α} {f : α → Py β} (hx : Tame x) (hf : ∀ a, Tame (f a)) : Tame (x >>= f) := by
  cases x with
  | error e => intro e' h; rw [py_error_bind] at h; exact hx e' (by cases h; rfl)
  | ok a => rw [py_ok_bind]; exact hf a

theorem ite {α : Type} {c : Prop} [Decidable c] {x y : Py α} (hx : Tame x) (hy : Tame y) : Tame (if c then x else y) := by
  split <;> assumption

theorem pyAssert (b : Bool) : Tame (pyAssert b) := by
  cases b
  · exact err rfl
  · exact ok _
theorem packB (n : Nat) : Tame (packB n) := by unfold Verif.packB; exact ite (ok _) (err rfl)
theorem packH (n : Nat) : Tame (packH n) := by unfold Verif.packH; exact ite (ok _) (err rfl)
theorem packL (n : Nat) : Tame (packL n) := by unfold Verif.packL; exact ite (ok _) (err rfl)
theorem packIntoH (f : Bytes) (i n : Nat) : Tame (packIntoH f i n) := by
  unfold Verif.packIntoH; exact (packH n).bind fun _ => ite (ok _) (err rfl)
theorem macOfInt (n : Int) : Tame (MacAddress.ofInt n) := by
  unfold MacAddress.ofInt; split
  · exact ok _
  · exact err rfl

theorem ip4Pshdr (a b : Ip4Address) (p n : Nat) : Tame (Ip4.pshdrSum a b p n) :=
  (packB _).bind fun _ => (packB _).bind fun _ => (packH _).bind fun _ => ok _
theorem ip6Pshdr (a b : Ip6Address) (p n : Nat) : Tame (Ip6.pshdrSum a b p n) :=
  (packL _).bind fun _ => (packB _).bind fun _ => (packB _).bind fun _ => (packB _).bind fun _ => (packB _).bind fun _ => ok _

theorem udpAssemble (s d : Nat) (data : Bytes) (ps : Nat) : Tame (Udp.assemble s d data ps) :=
  (pyAssert _).bind fun _ => (pyAssert _).bind fun _ => (packH _).bind fun _ => (packH _).bind fun _ =>
    (packH _).bind fun _ => (packH _).bind fun _ => packIntoH _ _ _

theorem dataFrags (d : Bytes) (m : Nat) : Tame (dataFrags d m) := by unfold Verif.dataFrags; exact ite (err rfl) (ok _)

theorem etherDstIp4 (s : Stack) (arp : ArpLookup) (a b : Ip4Address) : Tame (etherDstIp4 s arp a b) := by
  unfold Verif.etherDstIp4
  split
  · exact bind ((pyAssert _).bind fun _ => macOfInt _) fun _ => ok _
  · split
    · exact ok _
    · split
      · exact ok _
      · split
        · split
          · exact ok _
          · split <;> exact ok _
        · split <;> exact ok _

theorem etherDstIp6 (s : Stack) (nd : NdLookup) (a b : Ip6Address) : Tame (etherDstIp6 s nd a b) := by
  unfold Verif.etherDstIp6
  split
  · exact bind ((pyAssert _).bind fun _ => macOfInt _) fun _ => ok _
  · split
    · split
      · exact ok _
      · split <;> exact ok _
    · split <;> exact ok _

theorem phtxEther (s : Stack) (arp : ArpLookup) (nd : NdLookup) (a b : MacAddress) (p : Pkt) :
    Tame (phtxEther s arp nd a b p) := by
  have h : Tame (etherDst s arp nd p) := by
    unfold etherDst
    split
    · exact etherDstIp6 _ _ _ _
    · exact etherDstIp4 _ _ _ _
    · exact etherDstIp4 _ _ _ _
    · exact ok _
  unfold Verif.phtxEther
  simp only
  split
  · exact ok _
  · split
    · rename_i e he; exact err (h e he)
    · exact ok _
    · exact ok _

theorem sendFrags {send : Nat → Bool → Bytes → Py (TxStatus × List Outgoing)} (h : ∀ a b c, Tame (send a b c)) :
    ∀ ds o, Tame (sendFrags send o ds)
  | [], _ => ok _
  | d :: ds, o => (h _ _ _).bind fun _ => (sendFrags h ds _).bind fun _ => ok _

theorem ip4Asserts (h : Ip4.Tx) : Tame h.asserts :=
  (pyAssert _).bind fun _ => (pyAssert _).bind fun _ => (pyAssert _).bind fun _ => (pyAssert _).bind fun _ => pyAssert _
theorem ip6Asserts (h : Ip6.Tx) (p : Nat) : Tame (ip6Asserts h p) :=
  (pyAssert _).bind fun _ => (pyAssert _).bind fun _ => (pyAssert _).bind fun _ => (pyAssert _).bind fun _ => pyAssert _

theorem phtxIp4 (s : Stack) (arp : Nat → ArpLookup) (src dst : Ip4Address) (ttl : Nat) (c : L4)
    (hc : ∀ ps, Tame (c.assemble ps)) : Tame (phtxIp4 s arp src dst ttl c).2 := by
  unfold Verif.phtxIp4
  split
  · exact err rfl
  · split
    · exact ok _
    · split
      · exact ok _
      · simp only
        split
        · rename_i e he; exact err (ip4Asserts _ e he)
        · split
          · dsimp only; exact phtxEther _ _ _ _ _ _
          · split
            · rename_i e he
              exact err (((ip4Pshdr _ _ _ _).bind fun _ => (hc _).bind fun _ => dataFrags _ _) e he)
            · exact (sendFrags (fun _ _ _ => (ip4Asserts _).bind fun _ => phtxEther _ _ _ _ _ _) _ _).bind fun _ => ok _

theorem phtxIp6Small (s : Stack) (nd : NdLookup) (src dst : Ip6Address) (hop : Nat) (c : L4) :
    Tame (phtxIp6Small s nd src dst hop c) := by
  unfold Verif.phtxIp6Small
  refine (pyAssert _).bind fun _ => ?_
  split
  · exact ok _
  · split
    · exact ok _
    · exact (ip6Asserts _ _).bind fun _ => ite ((phtxEther _ _ _ _ _ _).bind fun _ => ok _) (ok _)

theorem phtxIp6 (s : Stack) (nd : Nat → NdLookup) (src dst : Ip6Address) (hop : Nat) (c : L4)
    (hc : ∀ ps, Tame (c.assemble ps)) : Tame (phtxIp6 s nd src dst hop c).2 := by
  unfold Verif.phtxIp6
  split
  · rename_i e he; exact err (phtxIp6Small _ _ _ _ _ _ e he)
  · exact ok _
  · split
    · rename_i e he
      exact err (((ip6Pshdr _ _ _ _).bind fun _ => (hc _).bind fun _ => dataFrags _ _) e he)
    · refine (sendFrags (fun _ _ _ => ?_) _ _).bind fun _ => ok _
      refine (pyAssert _).bind fun _ => (phtxIp6Small _ _ _ _ _ _).bind fun x => ?_
      cases x with
      | inl r => exact ok _
      | inr r => exact err rfl

theorem phtxUdp (s : Stack) (l : Socks.Links) (src dst : IpAddress) (sport dport : Nat) (data : Bytes) :
    Tame (phtxUdp s l src dst sport dport data).2 := by
  unfold Verif.phtxUdp
  split
  · exact err rfl
  · simp only
    split
    · exact phtxIp6 _ _ _ _ _ _ (fun ps => udpAssemble _ _ _ _)
    · exact phtxIp4 _ _ _ _ _ _ (fun ps => udpAssemble _ _ _ _)
    · exact ok _

theorem sentLen {data : Bytes} {x : Py (TxStatus × List Outgoing)} (h : Tame x) : Tame (Socks.sentLen data x) := by
  unfold Socks.sentLen
  split
  · exact fun e he => h e (by cases he; rfl)
  · exact ok _

end Tame
end Verif
