import Verif.Model.TcpClient
import Verif.Spec.TcpServices
/-! What the TCP echo client promises. -/
namespace Verif.Spec
open Echo

/-- An end `a`, where anything may happen, and a client made to send `count` messages of size `size` on its session `b`: the thread has its turns, the
stack works in between, and the segments that arrive at an end are ones that the other has sent, in any order and any number of times. -/
inductive Dialled (size count : Int) (x y : Sess) : Sess → Sess → TcpClient.Pc → Prop
  | start : Dialled size count x y x y .connecting
  | peer {a b : Sess} {pc : TcpClient.Pc} {e : Sess.Ev} : Dialled size count x y a b pc → Arrives b e → Dialled size count x y (a.step e) b pc
  | stack {a b : Sess} {pc : TcpClient.Pc} {e : Sess.Ev} : Dialled size count x y a b pc → ByStack e → Arrives a e →
      Dialled size count x y a (b.step e) pc
  | client {a b : Sess} {pc : TcpClient.Pc} (running : Bool) : Dialled size count x y a b pc →
      Dialled size count x y a (TcpClient.turn running size count b pc).1 (TcpClient.turn running size count b pc).2

/-- `x` is the number `n` in its brackets, with five digits or, if these do not suffice, with as many as it has. -/
def NumberBlock (n : Nat) (x : Bytes) : Prop :=
  ∃ w d, Figures w n d ∧ (w = 5 ∨ 5 < w ∧ 10 ^ (w - 1) ≤ n) ∧ x = ascii "[------" ++ d ++ ascii "------] "

/-- `x` is a message of the client: a first block, the blocks 1, 2, …, a last one; `size` blocks in all, but not less than two. -/
def BlockMessage (size : Int) (x : Bytes) : Prop :=
  ∃ blocks : List Bytes, blocks.length = (size - 2).toNat ∧ (∀ (k : Nat) (h : k < blocks.length), NumberBlock (k + 1) blocks[k]) ∧
    x = ascii "[------START------] " ++ blocks.flatten ++ ascii "[-------END-------]\n"

end Verif.Spec
