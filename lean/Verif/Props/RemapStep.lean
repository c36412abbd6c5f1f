import Verif.Props.Remap
import Mathlib.Tactic.ByContra
/-!
One name of `remap_send_receive`: the signals.
-/
namespace Verif.Reduce

variable {α μ : Type} [DecidableEq α] [Field α] {T : Option Typing} {g g' : Graph α} {n n' : Nat} {M : Multiset Conn} {ss rs : List Nat}
  {wr var so : Nat → Nat} {rd : Nat → Nat → Nat} {E : List Conn}

/-- the sends and receives of the name `m` -/
structure Call (T : Option Typing) (g : Graph α) (n : Nat) (M : Multiset Conn) (m : String) (ss rs : List Nat) : Prop where
  place : Place g n M ss rs
  ready : ReadyT T g n M
  posted : Posted g M
  sends : ∀ s, s ∈ ss ↔ s ∈ g.ids ∧ g.kind s = .send m ∧ hasSignal (g.ins s 0)
  order : ss = (g.senders m).filter fun s => fmt (g.ins s 0) = 'f'
  receives : ∀ r, r ∈ rs ↔ r ∈ g.ids ∧ g.kind r = .receive m

/-- one step of the remapping: the situation -/
structure Post (T : Option Typing) (g : Graph α) (n : Nat) (M : Multiset Conn) (m : String) (ss rs : List Nat) (g' : Graph α) (n' : Nat)
    (wr var so : Nat → Nat) (rd : Nat → Nat → Nat) (E : List Conn) : Prop where
  call : Call T g n M m ss rs
  shape : Shape g n M ss rs g' n' wr var so rd E

/-- the reads, for all objects -/
def reads (ss rs : List Nat) (rd : Nat → Nat → Nat) (s r : Nat) : Nat := if s ∈ ss ∧ r ∈ rs then rd s r else r

/-- the same signals -/
structure Equal (n : Nat) (rs : List Nat) (so : Nat → Nat) (v v' : Nat → Nat → Nat → α) : Prop where
  old : ∀ p, p < n → p ∉ rs → ∀ j t, v' p j t = v p j t
  new : ∀ r ∈ rs, ∀ j t, v' (so r) j t = v r j t

theorem rename_id (log : Nat → List (Sent μ)) (t : Nat) : rename id log t = log t := by simp [rename]

variable {m : String}

theorem Post.inSum (P : Post T g n M m ss rs g' n' wr var so rd E) {v v' : Nat → Nat → Nat → α} (h : Equal n rs so v v') {d : Nat}
    (hd : d ∈ g.ids) (i t : Nat) : inSum v' (g'.ins (wr d) i) t = inSum v (g.ins d i) t := by
  refine (P.shape.into P.call.place hd i).inSum fun c hc _ => ?_
  have hm := (P.call.place.wired.mem_ins.1 hc).1
  show v' (so c.src) c.outlet t = _
  by_cases hr : c.src ∈ rs
  · exact h.new _ hr _ _
  · rw [P.shape.soOld _ hr]; exact h.old _ (P.call.place.src c hm) hr _ _

theorem Post.received (P : Post T g n M m ss rs g' n' wr var so rd E) {log : Nat → List (Sent μ)}
    (hlog : ∀ t, ∀ e ∈ log t, e.src < n) {d : Nat} (hd : d ∈ g.ids) (i t : Nat) :
    received (log t) (g'.ins (wr d) i) = received (log t) (g.ins d i) := by
  conv_lhs => rw [← rename_id log t]
  refine (P.shape.into P.call.place hd i).received fun e _ c hc hty => ?_
  have hm := (P.call.place.wired.mem_ins.1 hc).1
  show so c.src = e.src ∧ c.outlet = e.outlet ↔ _
  have hr : c.src ∉ rs := fun hr => (P.call.place.rsOut _ hr c hm rfl).2 hty
  rw [P.shape.soOld _ hr]

theorem Post.not_both (P : Post T g n M m ss rs g' n' wr var so rd E) {p : Nat} (h1 : p ∈ ss) (h2 : p ∈ rs) : False := by
  have a := ((P.call.sends p).1 h1).2.1
  have b := ((P.call.receives p).1 h2).2
  rw [a] at b; simp at b

/-- the new kinds -/
theorem Post.newKind (P : Post T g n M m ss rs g' n' wr var so rd E) {x : Nat} (h1 : n ≤ x) (h2 : x < n') :
    (∀ m, g'.kind x ≠ .send m) ∧ (∀ m, g'.kind x ≠ .receive m) ∧ (∀ y, g'.kind x = .varWrite y → ∃ s ∈ ss, x = wr s ∧ y = var s) ∧
      (g'.kind x).lang = false := by
  rcases P.shape.all x h1 h2 with ⟨s, hs, rfl | rfl⟩ | ⟨r, hr, rfl | ⟨s, hs, rfl⟩⟩
  · rw [(P.shape.varNew s hs).2.2]; simp [Kind.lang]
  · rw [(P.shape.wrNew s hs).2.2]
    refine ⟨by simp, by simp, fun y h => ⟨s, hs, rfl, by simpa using h.symm⟩, by simp [Kind.lang]⟩
  · have := P.shape.soKind hr
    exact ⟨this.1, this.2.1, fun y h => absurd h (this.2.2.1 y), this.2.2.2.2⟩
  · rw [(P.shape.rdNew s hs r hr).2.2]; simp [Kind.lang]

/-- only the new write writes the new variable -/
theorem Post.onlyWrite (P : Post T g n M m ss rs g' n' wr var so rd E) {s w : Nat} (hs : s ∈ ss) (hw : w ∈ g'.ids)
    (hk : g'.kind w = .varWrite (var s)) : w = wr s := by
  rcases (P.shape.mem_ids P.call.place w).1 hw with ⟨a, -⟩ | ⟨a, b⟩
  · rw [P.shape.kind w (P.call.place.below w a)] at hk
    have := P.call.place.below _ (P.call.posted.write w a _ hk).1
    have := (P.shape.varNew s hs).1
    omega
  · obtain ⟨q, hq, e1, e2⟩ := (P.newKind a b).2.2.1 _ hk
    rw [e1, P.shape.varInj s hs q hq e2]

theorem Post.writeMem (P : Post T g n M m ss rs g' n' wr var so rd E) {s : Nat} (hs : s ∈ ss) : wr s ∈ g'.ids :=
  (P.shape.mem_ids P.call.place _).2 (.inr ⟨(P.shape.wrNew s hs).1, (P.shape.wrNew s hs).2.1⟩)

/-- the old objects -/
theorem Post.obeys (P : Post T g n M m ss rs g' n' wr var so rd E) (W : World α μ) {log : Nat → List (Sent μ)}
    (hlog : ∀ t, ∀ e ∈ log t, e.src < n) {v v' : Nat → Nat → Nat → α} (h : Equal n rs so v v') {d : Nat} (hm : d ∈ g.ids)
    (hds : d ∉ ss) (hdr : d ∉ rs) : Obeys W g' log v' d ↔ Obeys (W.via wr (reads ss rs rd)) g log v d := by
  have hd := P.call.place.below d hm
  have hwd := P.shape.wrOld d hds
  have e1 : ∀ i t, Reduce.inSum v' (g'.ins d i) t = Reduce.inSum v (g.ins d i) t := fun i t => by
    have := P.inSum h hm i t; rwa [hwd] at this
  have e2 : ∀ i t, Reduce.received (log t) (g'.ins d i) = Reduce.received (log t) (g.ins d i) := fun i t => by
    have := P.received hlog hm i t; rwa [hwd] at this
  have e3 : ∀ i, hasSignal (g'.ins d i) = hasSignal (g.ins d i) := fun i => by
    have := (P.shape.into P.call.place hm i).hasSignal; rwa [hwd] at this
  have e4 := fun j t => h.old d hd hdr j t
  have hlag : ∀ q, lagged W (wr q) d = lagged (W.via wr (reads ss rs rd)) q d := fun q => by
    funext x t
    simp only [lagged, World.via, reads, hdr, and_false, if_false]
    rfl
  unfold Obeys
  rw [P.shape.kind d hd]
  cases hk : g.kind d with
  | varRead y =>
    obtain ⟨hy, hk2⟩ := P.call.ready.reads d hm y hk
    have hyn := P.call.place.below y hy
    have hys : y ∉ ss := fun hs => by
      have := ((P.call.sends y).1 hs).2.1
      rcases hk2 with ⟨k, hk2⟩ | ⟨hk2, -⟩ <;> (rw [hk2] at this; simp at this)
    have hrec : ∀ t, Reduce.received (log t) (g'.ins y 0) = Reduce.received (log t) (g.ins y 0) := fun t => by
      have := P.received hlog hy 0 t; rwa [P.shape.wrOld y hys] at this
    simp only [P.shape.kind y hyn, e4, hrec]
    refine or_congr Iff.rfl ⟨?_, ?_⟩
    · rintro ⟨w, a, b, c, e⟩
      have hw : w ∈ g.ids ∧ w ∉ ss ∧ w ∉ rs := by
        rcases (P.shape.mem_ids P.call.place w).1 a with h | ⟨h1, h2⟩
        · exact h
        · obtain ⟨s, hs, -, e2⟩ := (P.newKind h1 h2).2.2.1 y b
          have := (P.shape.varNew s hs).1
          omega
      have hww := P.shape.wrOld w hw.2.1
      refine ⟨w, hw.1, by rw [← P.shape.kind w (P.call.place.below w hw.1)]; exact b, c, fun t => ?_⟩
      rw [e t, ← hlag w, hww]
      refine congrFun (congrArg (lagged W w d) (funext fun t => ?_)) t
      have := P.inSum h hw.1 0 t
      rwa [hww] at this
    · rintro ⟨w, a, b, c, e⟩
      have hws : w ∉ ss := fun hs => by
        have := ((P.call.sends w).1 hs).2.1
        rw [b] at this; simp at this
      have hwr : w ∉ rs := fun hs => by
        have := ((P.call.receives w).1 hs).2
        rw [b] at this; simp at this
      have hww := P.shape.wrOld w hws
      refine ⟨w, (P.shape.mem_ids P.call.place w).2 (.inl ⟨a, hws, hwr⟩), by
        rw [P.shape.kind w (P.call.place.below w a)]; exact b, c, fun t => ?_⟩
      rw [e t, ← hlag w, hww]
      refine congrFun (congrArg (lagged W w d) (funext fun t => ?_)) t
      have := P.inSum h a 0 t
      rw [hww] at this
      exact this.symm
  | receive k =>
    have hne : k ≠ m := by
      rintro rfl
      exact hdr ((P.call.receives d).2 ⟨hm, hk⟩)
    have hsend : g'.senders k = g.senders k := by
      unfold Graph.senders
      rw [P.shape.ids, List.filter_append]
      have h1 : (List.range' n (n' - n)).filter (fun s => (g'.kind s).sends k) = [] := by
        rw [List.filter_eq_nil_iff]
        intro q hq
        have := P.shape.le
        have hq := List.mem_range'_1.1 hq
        have := (P.newKind (x := q) hq.1 (by omega)).1
        cases hk : g'.kind q with
        | send m => exact absurd hk (this m)
        | _ => simp [Kind.sends]
      rw [h1, List.append_nil, List.filter_filter]
      refine List.filter_congr fun q hq => ?_
      rw [P.shape.kind q (P.call.place.below q hq)]
      by_cases hs : q ∈ ss
      · rw [((P.call.sends q).1 hs).2.1]; simp [Kind.sends, Ne.symm hne]
      · by_cases hr : q ∈ rs
        · rw [((P.call.receives q).1 hr).2]; simp [Kind.sends]
        · simp [hs, hr]
    simp only [e4, hsend]
    refine forall_congr' fun t => ?_
    have : ((g.senders k).map fun q => lagged W q d (Reduce.inSum v' (g'.ins q 0)) t) =
        (g.senders k).map fun q => lagged (W.via wr (reads ss rs rd)) q d (Reduce.inSum v (g.ins q 0)) t := by
      refine List.map_congr_left fun q hq => ?_
      obtain ⟨h1, h2⟩ := mem_senders.1 hq
      have hqs : q ∉ ss := fun hs => by
        have := ((P.call.sends q).1 hs).2.1
        rw [h2] at this
        exact hne (by simpa using this)
      have hqw := P.shape.wrOld q hqs
      rw [← hlag q, hqw]
      refine congrFun (congrArg (lagged W q d) (funext fun t => ?_)) t
      have := P.inSum h h1 0 t
      rwa [hqw] at this
    rw [this]
  | _ => simp only [operand, e1, e2, e3, e4, World.via, World.op, World.fn, held] <;> rfl

theorem lagged_zero (W : World α μ) (s r : Nat) : lagged W s r (fun _ => (0 : α)) = fun _ => 0 := by
  funext t; simp [lagged]

theorem sum_filter_zero (l : List Nat) (p : Nat → Bool) (f : Nat → α) (h : ∀ s ∈ l, p s = false → f s = 0) :
    (l.map f).sum = ((l.filter p).map f).sum := by
  induction l with
  | nil => rfl
  | cons a l ih =>
    have i := ih fun s hs => h s (by simp [hs])
    cases hp : p a with
    | true => simp [hp, i]
    | false => simp [hp, i, h a (by simp) hp]

/-- the equation of a receive -/
theorem Post.receive (P : Post T g n M m ss rs g' n' wr var so rd E) (W : World α μ) {log : Nat → List (Sent μ)}
    {v : Nat → Nat → Nat → α} {r : Nat} (hr : r ∈ rs) : Obeys (W.via wr (reads ss rs rd)) g log v r ↔
      ∀ t, v r 0 t = (ss.map fun s => lagged W (wr s) (rd s r) (Reduce.inSum v (g.ins s 0)) t).sum := by
  unfold Obeys
  rw [((P.call.receives r).1 hr).2]
  simp only
  refine forall_congr' fun t => ?_
  rw [sum_filter_zero (g.senders m) (fun s => fmt (g.ins s 0) = 'f'), ← P.call.order]
  · have : (ss.map fun s => lagged (W.via wr (reads ss rs rd)) s r (Reduce.inSum v (g.ins s 0)) t) =
        ss.map fun s => lagged W (wr s) (rd s r) (Reduce.inSum v (g.ins s 0)) t := by
      refine List.map_congr_left fun s hs => ?_
      simp only [lagged, World.via, reads, hs, hr, and_self, if_true]
      rfl
    rw [this]
  · intro s hs hf
    obtain ⟨h1, h2⟩ := mem_senders.1 hs
    have hs' : s ∉ ss := by
      rw [P.call.order, List.mem_filter]
      rintro ⟨-, h⟩
      rw [h] at hf; simp at hf
    have hno : hasSignal (g.ins s 0) = false := by
      cases hc : hasSignal (g.ins s 0) with
      | false => rfl
      | true => exact absurd ((P.call.sends s).2 ⟨h1, h2, hc⟩) hs'
    have : Reduce.inSum v (g.ins s 0) = fun _ => 0 := by
      funext t
      unfold Reduce.inSum
      rw [List.filter_eq_nil_iff.2]
      · rfl
      · intro c hc hty
        rw [hasSignal, List.any_eq_false] at hno
        exact hno c hc hty
    rw [this, lagged_zero]

/-- the equations of the new objects -/
theorem Post.news (P : Post T g n M m ss rs g' n' wr var so rd E) (W : World α μ) {log : Nat → List (Sent μ)}
    {v v' : Nat → Nat → Nat → α} (h : Equal n rs so v v') : (∀ x, n ≤ x → x < n' → Obeys W g' log v' x) ↔
      ((∀ s ∈ ss, ∀ r ∈ rs, ∀ t, v' (rd s r) 0 t = lagged W (wr s) (rd s r) (Reduce.inSum v (g.ins s 0)) t) ∧
        ∀ r ∈ rs, ∀ t, v' (so r) 0 t = (ss.map fun s => v' (rd s r) 0 t).sum) := by
  have hsum : ∀ s ∈ ss, Reduce.inSum v' (g'.ins (wr s) 0) = Reduce.inSum v (g.ins s 0) := fun s hs => funext fun t =>
    P.inSum h (P.call.place.ssMem s hs) 0 t
  have hrd : ∀ s ∈ ss, ∀ r ∈ rs, Obeys W g' log v' (rd s r) ↔
      ∀ t, v' (rd s r) 0 t = lagged W (wr s) (rd s r) (Reduce.inSum v (g.ins s 0)) t := by
    intro s hs r hr
    unfold Obeys
    rw [(P.shape.rdNew s hs r hr).2.2]
    simp only
    constructor
    · rintro (⟨k, hk, -⟩ | ⟨w, hw, hk, -, e⟩)
      · rw [(P.shape.varNew s hs).2.2] at hk; simp at hk
      · rw [P.onlyWrite hs hw hk, hsum s hs] at e
        exact e
    · intro e
      exact .inr ⟨wr s, P.writeMem hs, (P.shape.wrNew s hs).2.2, (P.shape.varNew s hs).2.2, by rw [hsum s hs]; exact e⟩
  have hso : ∀ r ∈ rs, ∀ hE : E = sums ss rs so rd, g'.kind (so r) = .irBin "__add~f" → (Obeys W g' log v' (so r) ↔
      ∀ t, v' (so r) 0 t = (ss.map fun s => v' (rd s r) 0 t).sum) := by
    intro r hr hE hk
    unfold Obeys
    rw [hk]
    simp only
    refine forall_congr' fun t => ?_
    have : W.op (irOp "__add~f") (Reduce.inSum v' (g'.ins (so r) 0) t) (Reduce.inSum v' (g'.ins (so r) 1) t) =
      Reduce.inSum v' (g'.ins (so r) 0) t + Reduce.inSum v' (g'.ins (so r) 1) t := rfl
    rw [this, P.shape.total P.call.place hr hE]
  constructor
  · intro H
    have H1 : ∀ s ∈ ss, ∀ r ∈ rs, ∀ t, v' (rd s r) 0 t = lagged W (wr s) (rd s r) (Reduce.inSum v (g.ins s 0)) t :=
      fun s hs r hr => (hrd s hs r hr).1 (H _ (P.shape.rdNew s hs r hr).1 (P.shape.rdNew s hs r hr).2.1)
    refine ⟨H1, fun r hr => ?_⟩
    rcases P.shape.sum with ⟨s, h1, -, h3⟩ | ⟨hE, hk⟩
    · intro t; simp [h1, h3 r hr]
    · exact (hso r hr hE (hk r hr)).1 (H _ (P.shape.soNew r hr).1 (P.shape.soNew r hr).2)
  · rintro ⟨H1, H2⟩ x hx1 hx2
    rcases P.shape.all x hx1 hx2 with ⟨s, hs, rfl | rfl⟩ | ⟨r, hr, rfl | ⟨s, hs, rfl⟩⟩
    · unfold Obeys; rw [(P.shape.varNew s hs).2.2]; trivial
    · unfold Obeys; rw [(P.shape.wrNew s hs).2.2]; trivial
    · rcases P.shape.sum with ⟨s, h1, -, h3⟩ | ⟨hE, hk⟩
      · rw [h3 r hr]
        exact (hrd s (by simp [h1]) r hr).2 (H1 s (by simp [h1]) r hr)
      · exact (hso r hr hE (hk r hr)).2 (H2 r hr)
    · exact (hrd s hs r hr).2 (H1 s hs r hr)

open Classical in
/-- the signals of the new objects -/
noncomputable def newSignals (W : World α μ) (g : Graph α) (n : Nat) (ss rs : List Nat) (wr so : Nat → Nat) (rd : Nat → Nat → Nat)
    (v : Nat → Nat → Nat → α) (x j t : Nat) : α :=
  if x < n then v x j t
  else if h : ∃ r ∈ rs, so r = x then v h.choose j t
  else if h : ∃ q : Nat × Nat, q.1 ∈ ss ∧ q.2 ∈ rs ∧ rd q.1 q.2 = x then
    lagged W (wr h.choose.1) x (Reduce.inSum v (g.ins h.choose.1 0)) t
  else 0

/-- the signals of the whole graph -/
theorem Post.signals (P : Post T g n M m ss rs g' n' wr var so rd E) (W : World α μ) {log : Nat → List (Sent μ)}
    (hlog : ∀ t, ∀ e ∈ log t, e.src < n) :
    (∀ v, Solves (W.via wr (reads ss rs rd)) g log v → ∃ v', Solves W g' log v' ∧ Alike g g' log v v') ∧
    ∀ v', Solves W g' log v' → ∃ v, Solves (W.via wr (reads ss rs rd)) g log v ∧ Alike g g' log v v' := by
  have hids := P.shape.mem_ids P.call.place
  have A : ∀ v v', Equal n rs so v v' → Alike g g' log v v' := by
    intro v v' h p hp hp'
    have hpn := P.call.place.below p hp
    rcases (hids p).1 hp' with ⟨-, h1, h2⟩ | ⟨h1, -⟩
    · refine ⟨h.old p hpn h2, fun i t => ?_⟩
      have e1 := P.inSum h hp i t
      have e2 := P.received hlog hp i t
      rw [P.shape.wrOld p h1] at e1 e2
      exact ⟨e1, e2⟩
    · omega
  constructor
  · intro v hv
    have hrec : ∀ r ∈ rs, ∀ t, v r 0 t = (ss.map fun s => lagged W (wr s) (rd s r) (Reduce.inSum v (g.ins s 0)) t).sum :=
      fun r hr => (P.receive W hr).1 (hv r (P.call.place.rsMem r hr))
    have hnew : ∀ r ∈ rs, ∀ j t, newSignals W g n ss rs wr so rd v (so r) j t = v r j t := by
      intro r hr j t
      have h1 : ∃ q ∈ rs, so q = so r := ⟨r, hr, rfl⟩
      unfold newSignals
      rw [if_neg (by have := (P.shape.soNew r hr).1; omega), dif_pos h1]
      rw [P.shape.soInj _ h1.choose_spec.1 r hr h1.choose_spec.2]
    have heq : Equal n rs so v (newSignals W g n ss rs wr so rd v) :=
      ⟨fun p hp _ j t => by rw [newSignals, if_pos hp], hnew⟩
    have hrd : ∀ s ∈ ss, ∀ r ∈ rs, ∀ t, newSignals W g n ss rs wr so rd v (rd s r) 0 t =
        lagged W (wr s) (rd s r) (Reduce.inSum v (g.ins s 0)) t := by
      intro s hs r hr t
      rcases P.shape.sum with ⟨s0, h1, -, h3⟩ | ⟨hE, hk⟩
      · have : s = s0 := by simpa [h1] using hs
        subst this
        rw [← h3 r hr, hnew r hr, hrec r hr, h1]
        simp [h3 r hr]
      · have hno : ¬ ∃ q ∈ rs, so q = rd s r := by
          rintro ⟨q, hq, e⟩
          have := hk q hq
          rw [e, (P.shape.rdNew s hs r hr).2.2] at this
          simp at this
        have h1 : ∃ q : Nat × Nat, q.1 ∈ ss ∧ q.2 ∈ rs ∧ rd q.1 q.2 = rd s r := ⟨(s, r), hs, hr, rfl⟩
        unfold newSignals
        rw [if_neg (by have := (P.shape.rdNew s hs r hr).1; omega), dif_neg hno, dif_pos h1]
        obtain ⟨q1, q2, q3⟩ := h1.choose_spec
        have e : var h1.choose.1 = var s := by
          have := (P.shape.rdNew _ q1 _ q2).2.2
          rw [q3, (P.shape.rdNew s hs r hr).2.2] at this
          simpa using this.symm
        rw [P.shape.varInj _ q1 s hs e]
    refine ⟨newSignals W g n ss rs wr so rd v, fun p hp => ?_, A _ _ heq⟩
    rcases (hids p).1 hp with ⟨a, b, c⟩ | ⟨a, b⟩
    · exact (P.obeys W hlog heq a b c).2 (hv p a)
    · refine (P.news W heq).2 ⟨hrd, fun r hr t => ?_⟩ p a b
      rw [hnew r hr, hrec r hr]
      congr 1
      exact List.map_congr_left fun s hs => (hrd s hs r hr t).symm
  · intro v' hv
    have heq : Equal n rs so (fun p j t => if p ∈ rs then v' (so p) j t else v' p j t) v' :=
      ⟨fun p _ hr j t => by rw [if_neg hr], fun r hr j t => by rw [if_pos hr]⟩
    obtain ⟨H1, H2⟩ := (P.news W heq).1 fun x hx1 hx2 => hv x ((hids x).2 (.inr ⟨hx1, hx2⟩))
    refine ⟨_, fun p hp => ?_, A _ _ heq⟩
    by_cases hr : p ∈ rs
    · rw [P.receive W hr]
      intro t
      simp only [if_pos hr]
      rw [H2 p hr t]
      congr 1
      exact List.map_congr_left fun s hs => H1 s hs p hr t
    · by_cases hs : p ∈ ss
      · unfold Obeys
        rw [((P.call.sends p).1 hs).2.1]
        trivial
      · exact (P.obeys W hlog heq hp hs hr).1 (hv p ((hids p).2 (.inl ⟨hp, hs, hr⟩)))

end Verif.Reduce
