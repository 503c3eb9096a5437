import Verif.Lemmas.Senders
/-! A call that sends in fragments with no other thread in between. -/
namespace Verif
open Spec
namespace Senders

theorem run_append (s : St) (xs ys : List Step) : s.run (xs ++ ys) = (s.run xs).run ys := by
  rw [St.run, List.foldl_append]; rfl

/-- The rest of the loop. -/
theorem loop_alone {arp : ArpLookup} {nd : NdLookup} (ds : List Bytes) : ∀ (s : St) (k : Nat) (j : Job) (sts : List TxStatus) (outs : List Outgoing),
    s.jobs[k]? = some j → j.pos = .loop → j.frags.drop j.i = ds → (j.i ≤ j.frags.length) →
    sendFrags (fun off mf d => j.way.send s.stack arp nd (j.way.id s.stack) off mf d) j.offset ds = .ok (sts, outs) →
    ∃ j' : Job, j'.pos = .done (.ok (j.way.status (j.sts ++ sts))) ∧
      s.run ((List.replicate ds.length [Step.build k, .emit k arp nd]).flatten ++ [.build k]) =
        { s.put k j' with out := s.out ++ outs.map fun o => (some (k, j.way.id s.stack), o) } := by
  induction ds with
  | nil =>
    intro s k j sts outs hj hp hd hi H
    rw [sendFrags] at H
    cases H
    have hn : ¬ j.i < j.frags.length := by
      have := congrArg List.length hd
      simp only [List.length_drop, List.length_nil] at this
      omega
    refine ⟨{ j with pos := .done (.ok (j.way.status j.sts)) }, by simp, ?_⟩
    simp only [List.length_nil, List.replicate_zero, List.flatten_nil, List.nil_append, St.run, List.foldl_cons, List.foldl_nil, St.step, hj, hp, if_neg hn,
      List.map_nil, List.append_nil]
    rfl
  | cons d ds ih =>
    intro s k j sts outs hj hp hd hi H
    rw [sendFrags] at H
    obtain ⟨⟨st, o1⟩, h1, H⟩ := py_bind_ok H
    obtain ⟨⟨sts', o2⟩, h2, H⟩ := py_bind_ok H
    cases H
    have hlt : j.i < j.frags.length := by
      have := congrArg List.length hd
      simp only [List.length_drop, List.length_cons] at this
      omega
    have hget : j.frags[j.i]? = some d := by
      have := congrArg (fun l => l[0]?) hd
      simpa using this
    have hdrop : j.frags.drop (j.i + 1) = ds := by
      have := congrArg (List.drop 1) hd
      simpa using this
    have hmf : (!ds.isEmpty) = decide (j.i + 1 < j.frags.length) := by
      have hl : ds.length = j.frags.length - (j.i + 1) := by rw [← hdrop, List.length_drop]
      cases ds with
      | nil => simp only [List.length_nil] at hl; simp; omega
      | cons a as => simp only [List.length_cons] at hl; simp; omega
    rw [hmf] at h1
    have hk := (List.getElem?_eq_some_iff.1 hj).1
    rw [List.length_cons, List.replicate_succ, List.flatten_cons, List.append_assoc, run_append]
    have e : s.run [.build k, .emit k arp nd] =
        { s.put k { j with pos := .loop, i := j.i + 1, offset := j.offset + d.length, sts := j.sts ++ [st] } with
          out := s.out ++ o1.map fun o => (some (k, j.way.id s.stack), o) } := by
      have hb : s.step (.build k) = s.put k { j with pos := .built (j.way.id s.stack) } := by
        simp only [St.step, hj, hp, if_pos hlt]
      simp only [St.run, List.foldl_cons, List.foldl_nil]
      rw [hb, St.step, put_get hj, if_pos rfl]
      simp only [hget]
      rw [show (s.put k { j with pos := .built (j.way.id s.stack) }).stack = s.stack from rfl, h1]
      simp only [St.put, List.set_set]
    rw [e]
    have := ih { s.put k { j with pos := .loop, i := j.i + 1, offset := j.offset + d.length, sts := j.sts ++ [st] } with
          out := s.out ++ o1.map fun o => (some (k, j.way.id s.stack), o) } k
          { j with pos := .loop, i := j.i + 1, offset := j.offset + d.length, sts := j.sts ++ [st] } sts' o2
          (by
            have := put_get (k' := k) (j₁ := { j with pos := .loop, i := j.i + 1, offset := j.offset + d.length, sts := j.sts ++ [st] }) hj
            rw [if_pos rfl] at this
            exact this) rfl hdrop hlt h2
    obtain ⟨j', h3, h4⟩ := this
    refine ⟨j', by rw [h3]; simp, ?_⟩
    rw [h4]
    simp only [St.put, List.set_set, List.map_append, List.append_assoc]

/-- A call that has cut its packet up, with no other thread in between. -/
theorem job_alone {s : St} {w : Way} {frags : List Bytes} {arp : ArpLookup} {nd : NdLookup} {sts : List TxStatus} {outs : List Outgoing}
    (H : sendFrags (fun off mf d => w.send (w.setId s.stack (w.id s.stack + 1)) arp nd (w.id s.stack + 1) off mf d) 0 frags = .ok (sts, outs)) :
    ∃ j : Job, j.pos = .done (.ok (w.status sts)) ∧
      St.run { s with jobs := s.jobs ++ [{ way := w, frags := frags }] } (restOf s.jobs.length frags.length arp nd) =
        ⟨w.setId s.stack (w.id s.stack + 1), s.jobs ++ [j], s.out ++ outs.map fun o => (some (s.jobs.length, w.id s.stack + 1), o)⟩ := by
  have hid : w.id (w.setId s.stack (w.id s.stack + 1)) = w.id s.stack + 1 := by cases w <;> rfl
  have hb : ({ s with jobs := s.jobs ++ [{ way := w, frags := frags }] } : St).step (.bump s.jobs.length) =
      ⟨w.setId s.stack (w.id s.stack + 1), s.jobs ++ [{ way := w, frags := frags, pos := .loop }], s.out⟩ := by
    simp [St.step, St.put]
  have := loop_alone (arp := arp) (nd := nd) frags ⟨w.setId s.stack (w.id s.stack + 1), s.jobs ++ [{ way := w, frags := frags, pos := .loop }], s.out⟩
    s.jobs.length { way := w, frags := frags, pos := .loop } sts outs (by simp) rfl (by simp) (by simp) (by simpa only [hid] using H)
  obtain ⟨j, h1, h2⟩ := this
  refine ⟨j, by simpa using h1, ?_⟩
  rw [restOf, St.run, List.foldl_cons, hb]
  rw [St.run] at h2
  rw [h2]
  simp [St.put, hid]

/-- A call that has not cut anything up makes no further steps. -/
theorem rest_none (s : St) (n : Nat) (arp : ArpLookup) (nd : NdLookup) : s.run (restOf s.jobs.length n arp nd) = s := by
  have h : s.jobs[s.jobs.length]? = none := by simp
  have hb : s.step (.build s.jobs.length) = s := by simp only [St.step, h]
  have he : s.step (.emit s.jobs.length arp nd) = s := by simp only [St.step, h]
  have hu : s.step (.bump s.jobs.length) = s := by simp only [St.step, h]
  rw [restOf, St.run, List.foldl_cons, hu]
  rw [List.foldl_append]
  have : (List.replicate n [Step.build s.jobs.length, .emit s.jobs.length arp nd]).flatten.foldl St.step s = s := by
    induction n with
    | zero => rfl
    | succ n ih => rw [List.replicate_succ, List.flatten_cons, List.foldl_append, List.foldl_cons, List.foldl_cons, List.foldl_nil, hb, he]; exact ih
  rw [this, List.foldl_cons, List.foldl_nil, hb]

theorem began_inl (s : St) (st st' : TxStatus) (outs : List Outgoing) (n : Nat) (arp : ArpLookup) (nd : NdLookup) :
    CameTo s ((s.began (.ok (.inl (st, outs)))).run (restOf s.jobs.length n arp nd)) s.stack st' outs := by
  have := rest_none { s with out := s.out ++ outs.map fun o => (none, o) } n arp nd
  rw [show s.began (.ok (.inl (st, outs))) = { s with out := s.out ++ outs.map fun o => (none, o) } from rfl]
  dsimp only at this ⊢
  rw [this]
  exact ⟨rfl, by simp [Function.comp_def], .inl rfl⟩

theorem began_inr {s : St} {w : Way} {frags : List Bytes} {arp : ArpLookup} {nd : NdLookup} {sts : List TxStatus} {outs : List Outgoing}
    (H : sendFrags (fun off mf d => w.send (w.setId s.stack (w.id s.stack + 1)) arp nd (w.id s.stack + 1) off mf d) 0 frags = .ok (sts, outs)) :
    CameTo s ((s.began (.ok (.inr (w, frags)))).run (restOf s.jobs.length frags.length arp nd)) (w.setId s.stack (w.id s.stack + 1)) (w.status sts) outs := by
  obtain ⟨j, h5, h6⟩ := job_alone H
  rw [show s.began (.ok (.inr (w, frags))) = { s with jobs := s.jobs ++ [{ way := w, frags := frags }] } from rfl, h6]
  exact ⟨rfl, by simp [Function.comp_def], .inr ⟨j, rfl, h5⟩⟩

end Senders
end Verif
