import Verif.Props.RemapStep
/-!
One name of `remap_send_receive`: the graph that results.
-/
namespace Verif.Reduce

variable {α μ : Type} [DecidableEq α] [Field α] {T : Option Typing} {g g' : Graph α} {n n' : Nat} {M : Multiset Conn} {ss rs : List Nat}
  {wr var so : Nat → Nat} {rd : Nat → Nat → Nat} {E : List Conn} {m : String}

theorem all_fmt {l : List Conn} (h1 : l ≠ []) (h2 : ∀ c ∈ l, c.ty = .f) : fmt l = 'f' := by
  obtain ⟨d, hd⟩ := List.exists_mem_of_ne_nil _ h1
  have e1 : (l.all fun c => c.ty = .c) = false := by
    rw [List.all_eq_false]
    exact ⟨d, hd, by simp [h2 d hd]⟩
  have e2 : (l.all fun c => c.ty = .f) = true := by
    rw [List.all_eq_true]
    intro c hc; simp [h2 c hc]
  unfold fmt
  rw [if_neg h1, e1, e2]
  rfl

theorem isSend_iff {K : Kind α} : K.isSend m = true ↔ K = .send m := by cases K <;> simp [Kind.isSend]
theorem isReceive_iff {K : Kind α} : K.isReceive m = true ↔ K = .receive m := by cases K <;> simp [Kind.isReceive]

theorem senders_eq : (g.ids.filter fun s => (g.kind s).isSend m) = g.senders m := by
  unfold Graph.senders
  refine List.filter_congr fun s _ => ?_
  cases g.kind s <;> rfl

/-- the sends and receives of a name in a graph -/
theorem call_of (h : ReadyT T g n M) (p : Posted g M) (m : String)
    (hne : ((g.ids.filter fun s => (g.kind s).isSend m).filter fun s => fmt (g.ins s 0) = 'f') ≠ []) :
    Call T g n M m ((g.ids.filter fun s => (g.kind s).isSend m).filter fun s => fmt (g.ins s 0) = 'f')
      (g.ids.filter fun r => (g.kind r).isReceive m) := by
  have hs : ∀ s, s ∈ ((g.ids.filter fun s => (g.kind s).isSend m).filter fun s => fmt (g.ins s 0) = 'f') ↔
      s ∈ g.ids ∧ g.kind s = .send m ∧ hasSignal (g.ins s 0) := by
    intro s
    rw [List.mem_filter, List.mem_filter, isSend_iff, decide_eq_true_eq, and_assoc]
    refine and_congr_right fun h1 => and_congr_right fun h2 => ⟨hasSignal_f, fun h3 => ?_⟩
    refine all_fmt ?_ fun c hc => ?_
    · intro e; rw [e] at h3; simp [hasSignal] at h3
    · obtain ⟨q1, q2, -⟩ := h.wired.mem_ins.1 hc
      exact p.sendTy m ⟨s, h1, h2, h3⟩ s h1 h2 c q1 q2
  have hr : ∀ r, r ∈ (g.ids.filter fun r => (g.kind r).isReceive m) ↔ r ∈ g.ids ∧ g.kind r = .receive m := by
    intro r; rw [List.mem_filter, isReceive_iff]
  obtain ⟨s0, hs0⟩ := List.exists_mem_of_ne_nil _ hne
  have hlive : Live.name g m := ⟨s0, (hs s0).1 hs0⟩
  refine ⟨⟨h.wired, h.clean.src, h.clean.dst, h.nodup, h.below, (h.nodup.filter _).filter _, h.nodup.filter _,
    fun s hm => ((hs s).1 hm).1, fun r hm => ((hr r).1 hm).1, ?_, ?_, ?_, ?_⟩, h, p, hs, by rw [senders_eq], hr⟩
  · intro s hm c hc hd
    obtain ⟨h1, h2, h3⟩ := (hs s).1 hm
    refine ⟨(p.send s h1 m h2 c hc).2 hd, ?_⟩
    rw [p.sendTy m hlive s h1 h2 c hc hd]; simp
  · intro s hm c hc
    obtain ⟨h1, h2, h3⟩ := (hs s).1 hm
    exact (p.send s h1 m h2 c hc).1
  · intro r hm c hc hd
    obtain ⟨h1, h2⟩ := (hr r).1 hm
    refine ⟨(p.receive r h1 m h2 c hc).2 hd, ?_⟩
    rw [p.receiveTy m hlive r h1 h2 c hc hd]; simp
  · intro r hm c hc
    obtain ⟨h1, h2⟩ := (hr r).1 hm
    exact (p.receive r h1 m h2 c hc).1

/-- where the ends of the connections are now -/
theorem Post.ends (P : Post T g n M m ss rs g' n' wr var so rd E) {c : Conn} (hc : c ∈ M) :
    (so c.src ∈ g'.ids ∧ wr c.dst ∈ g'.ids) ∧ (c.src ∉ ss ∧ c.dst ∉ rs) := by
  have hids := P.shape.mem_ids P.call.place
  have h1 : c.src ∉ ss := fun h => P.call.place.ssOut _ h c hc rfl
  have h2 : c.dst ∉ rs := fun h => P.call.place.rsIn _ h c hc rfl
  refine ⟨⟨?_, ?_⟩, h1, h2⟩
  · by_cases hr : c.src ∈ rs
    · exact (hids _).2 (.inr (P.shape.soNew _ hr))
    · rw [P.shape.soOld _ hr]
      exact (hids _).2 (.inl ⟨(P.call.ready.ends c hc).1, h1, hr⟩)
  · by_cases hs : c.dst ∈ ss
    · exact P.writeMem hs
    · rw [P.shape.wrOld _ hs]
      exact (hids _).2 (.inl ⟨(P.call.ready.ends c hc).2, hs, h2⟩)

theorem mem_new {c : Conn} : c ∈ M.map (ren wr so) + ↑E ↔ (∃ d ∈ M, ren wr so d = c) ∨ c ∈ E := by
  rw [Multiset.mem_add, Multiset.mem_map, Multiset.mem_coe]

theorem lower (rk : Nat → Int) (l : List Nat) : ∃ b, ∀ r ∈ l, b < rk r := by
  induction l with
  | nil => exact ⟨0, by simp⟩
  | cons a l ih =>
    obtain ⟨b, hb⟩ := ih
    refine ⟨min b (rk a - 1), fun r hr => ?_⟩
    rcases List.mem_cons.1 hr with rfl | h
    · omega
    · have := hb r h; omega

open Classical in
/-- the rank of the new objects -/
noncomputable def newRank (rk : Nat → Int) (b : Int) (n : Nat) (ss rs : List Nat) (wr so : Nat → Nat) (x : Nat) : Int :=
  if x < n then rk x
  else if h : ∃ r ∈ rs, so r = x then rk h.choose
  else if h : ∃ s ∈ ss, wr s = x then rk h.choose
  else b

theorem Post.kindOld (P : Post T g n M m ss rs g' n' wr var so rd E) {o : Nat} (ho : o ∈ g'.ids) (h : (∃ m, g'.kind o = .send m) ∨
    (∃ m, g'.kind o = .receive m) ∨ (g'.kind o).lang) : o ∈ g.ids ∧ o ∉ ss ∧ o ∉ rs ∧ g'.kind o = g.kind o := by
  rcases (P.shape.mem_ids P.call.place o).1 ho with ⟨a, b, c⟩ | ⟨a, b⟩
  · exact ⟨a, b, c, P.shape.kind o (P.call.place.below o a)⟩
  · have := P.newKind a b
    rcases h with ⟨m, h⟩ | ⟨m, h⟩ | h
    · exact absurd h (this.1 m)
    · exact absurd h (this.2.1 m)
    · rw [this.2.2.2] at h; simp at h

/-- the new graph can be compiled -/
theorem Post.ready (P : Post T g n M m ss rs g' n' wr var so rd E) : ReadyT T g' n' (M.map (ren wr so) + ↑E) := by
  have S := P.shape
  have R := P.call.ready
  have L := P.call.place
  have hids := S.mem_ids L
  have hle := S.le
  have soNe : ∀ r ∈ rs, ∀ s ∈ ss, so r ≠ wr s := fun r hr s hs e =>
    (S.soKind hr).2.2.1 _ (e ▸ (S.wrNew s hs).2.2)
  refine ⟨S.wired, ?_, ?_, ?_, ?_, ?_, ?_, ?_, ?_, ?_, fun τ hτ => ?_⟩
  · rw [S.ids, List.nodup_append]
    refine ⟨L.nodup.filter _, List.nodup_range', ?_⟩
    intro p hp q hq
    have h1 := L.below p (List.mem_filter.1 hp).1
    have h2 := (List.mem_range'_1.1 hq).1
    omega
  · intro o ho
    rcases (hids o).1 ho with ⟨a, -⟩ | ⟨-, b⟩
    · have := L.below o a; omega
    · exact b
  · intro c hc
    rcases mem_new.1 hc with ⟨d, hd, rfl⟩ | he
    · exact (P.ends hd).1
    · obtain ⟨s, hs, r, hr, e1, e2, -⟩ := S.edge he
      rw [e1, e2]
      have := S.rdNew s hs r hr
      exact ⟨(hids _).2 (.inr ⟨this.1, this.2.1⟩), (hids _).2 (.inr (S.soNew r hr))⟩
  · intro c hc
    rcases mem_new.1 hc with ⟨d, hd, rfl⟩ | he
    · show so d.src ≠ wr d.dst
      have h1 := L.src d hd
      have h2 := L.dst d hd
      by_cases hr : d.src ∈ rs <;> by_cases hs : d.dst ∈ ss
      · exact soNe _ hr _ hs
      · rw [S.wrOld _ hs]; have := (S.soNew _ hr).1; omega
      · rw [S.soOld _ hr]; have := (S.wrNew _ hs).1; omega
      · rw [S.soOld _ hr, S.wrOld _ hs]; exact R.loop d hd
    · obtain ⟨s, hs, r, hr, e1, e2, -⟩ := S.edge he
      rw [e1, e2]
      intro e
      rcases S.sum with ⟨s0, -, h, -⟩ | ⟨-, h⟩
      · rw [h] at he; simp at he
      · have := h r hr
        rw [← e, (S.rdNew s hs r hr).2.2] at this
        simp at this
  · intro c hc
    rcases mem_new.1 hc with ⟨d, hd, rfl⟩ | he
    · exact R.floats d hd
    · obtain ⟨s, hs, r, hr, -, -, -, e⟩ := S.edge he
      rw [e]; simp
  · obtain ⟨rk, hrk⟩ := R.rank
    obtain ⟨b, hb⟩ := lower rk rs
    have k1 : ∀ p, p < n → newRank rk b n ss rs wr so p = rk p := fun p hp => by rw [newRank, if_pos hp]
    have k2 : ∀ r ∈ rs, newRank rk b n ss rs wr so (so r) = rk r := fun r hr => by
      have h1 : ∃ q ∈ rs, so q = so r := ⟨r, hr, rfl⟩
      unfold newRank
      rw [if_neg (by have := (S.soNew r hr).1; omega), dif_pos h1, S.soInj _ h1.choose_spec.1 r hr h1.choose_spec.2]
    have k3 : ∀ s ∈ ss, newRank rk b n ss rs wr so (wr s) = rk s := fun s hs => by
      have h0 : ¬ ∃ q ∈ rs, so q = wr s := by
        rintro ⟨q, hq, e⟩
        exact soNe q hq s hs e
      have h1 : ∃ q ∈ ss, wr q = wr s := ⟨s, hs, rfl⟩
      unfold newRank
      rw [if_neg (by have := (S.wrNew s hs).1; omega), dif_neg h0, dif_pos h1, S.wrInj _ h1.choose_spec.1 s hs h1.choose_spec.2]
    refine ⟨newRank rk b n ss rs wr so, fun c hc => ?_⟩
    rcases mem_new.1 hc with ⟨d, hd, rfl⟩ | he
    · show (_ → newRank rk b n ss rs wr so (so d.src) < newRank rk b n ss rs wr so (wr d.dst)) ∧
        (_ → newRank rk b n ss rs wr so (so d.src) ≤ newRank rk b n ss rs wr so (wr d.dst)) ∧
        ∀ τ, _ → _ → newRank rk b n ss rs wr so (so d.src) < newRank rk b n ss rs wr so (wr d.dst)
      have e1 : newRank rk b n ss rs wr so (so d.src) = rk d.src := by
        by_cases hr : d.src ∈ rs
        · exact k2 _ hr
        · rw [S.soOld _ hr]; exact k1 _ (L.src d hd)
      have e2 : newRank rk b n ss rs wr so (wr d.dst) = rk d.dst := by
        by_cases hs : d.dst ∈ ss
        · exact k3 _ hs
        · rw [S.wrOld _ hs]; exact k1 _ (L.dst d hd)
      rw [e1, e2]
      exact hrk d hd
    · obtain ⟨s, hs, r, hr, e1, e2, -⟩ := S.edge he
      rw [e1, e2, k2 r hr]
      have hk : ∀ r ∈ rs, g'.kind (so r) = .irBin "__add~f" := by
        rcases S.sum with ⟨s0, -, h, -⟩ | ⟨-, h⟩
        · rw [h] at he; simp at he
        · exact h
      have h0 : ¬ ∃ q ∈ rs, so q = rd s r := by
        rintro ⟨q, hq, e⟩
        have := hk q hq
        rw [e, (S.rdNew s hs r hr).2.2] at this
        simp at this
      have h1 : ¬ ∃ q ∈ ss, wr q = rd s r := by
        rintro ⟨q, hq, e⟩
        have := (S.wrNew q hq).2.2
        rw [e, (S.rdNew s hs r hr).2.2] at this
        simp at this
      unfold newRank
      rw [if_neg (by have := (S.rdNew s hs r hr).1; omega), dif_neg h0, dif_neg h1]
      exact ⟨fun _ => hb r hr, fun _ => (hb r hr).le, fun _ _ _ => hb r hr⟩
  · intro o ho y hk
    rcases (hids o).1 ho with ⟨a, -, -⟩ | ⟨a, b⟩
    · rw [S.kind o (L.below o a)] at hk
      obtain ⟨h1, h2⟩ := R.reads o a y hk
      have stay : ∀ q ∈ g.ids, (∀ m, g.kind q ≠ .send m) → (∀ m, g.kind q ≠ .receive m) → q ∈ g'.ids := fun q hq e1 e2 =>
        (hids q).2 (.inl ⟨hq, fun h => e1 m ((P.call.sends q).1 h).2.1, fun h => e2 m ((P.call.receives q).1 h).2⟩)
      rw [S.kind y (L.below y h1)]
      rcases h2 with ⟨k, h2⟩ | ⟨h2, w, h3, h4⟩
      · exact ⟨stay y h1 (by simp [h2]) (by simp [h2]), .inl ⟨k, h2⟩⟩
      · exact ⟨stay y h1 (by simp [h2]) (by simp [h2]), .inr ⟨h2, w, stay w h3 (by simp [h4]) (by simp [h4]), by
          rw [S.kind w (L.below w h3)]; exact h4⟩⟩
    · have key : ∀ s ∈ ss, var s ∈ g'.ids ∧ ((∃ k, g'.kind (var s) = .varS k) ∨
          (g'.kind (var s) = .varSig ∧ ∃ w ∈ g'.ids, g'.kind w = .varWrite (var s))) := fun s hs =>
        ⟨(hids _).2 (.inr ⟨(S.varNew s hs).1, (S.varNew s hs).2.1⟩), .inr ⟨(S.varNew s hs).2.2, wr s, P.writeMem hs, (S.wrNew s hs).2.2⟩⟩
      rcases S.all o a b with ⟨s, hs, rfl | rfl⟩ | ⟨r, hr, rfl | ⟨s, hs, rfl⟩⟩
      · rw [(S.varNew s hs).2.2] at hk; simp at hk
      · rw [(S.wrNew s hs).2.2] at hk; simp at hk
      · rcases S.sum with ⟨s0, h1, -, h3⟩ | ⟨-, h⟩
        · have hs0 : s0 ∈ ss := by simp [h1]
          rw [h3 r hr, (S.rdNew s0 hs0 r hr).2.2] at hk
          have : var s0 = y := by simpa using hk
          subst this
          exact key s0 hs0
        · rw [h r hr] at hk; simp at hk
      · rw [(S.rdNew s hs r hr).2.2] at hk
        have : var s = y := by simpa using hk
        subst this
        exact key s hs
  · intro o ho hl
    obtain ⟨a, b, c, e⟩ := P.kindOld ho (.inr (.inr hl))
    rw [e] at hl ⊢
    have hon := L.below o a
    have old := R.lets o a hl
    constructor
    · intro d hd hdo
      rcases mem_new.1 hd with ⟨d, hd', rfl⟩ | he
      · refine old.inlet d hd' ?_
        have hdo : wr d.dst = o := hdo
        by_cases hs : d.dst ∈ ss
        · have := (S.wrNew _ hs).1; omega
        · rwa [S.wrOld _ hs] at hdo
      · obtain ⟨s, hs, r, hr, e1, e2, -⟩ := S.edge he
        have := (S.soNew r hr).1
        omega
    · intro d hd hdo
      rcases mem_new.1 hd with ⟨d, hd', rfl⟩ | he
      · refine old.outlet d hd' ?_
        have hdo : so d.src = o := hdo
        by_cases hs : d.src ∈ rs
        · have := (S.soNew _ hs).1; omega
        · rwa [S.soOld _ hs] at hdo
      · exact (S.edge he).choose_spec.2.choose_spec.2.2.2.1
  · intro o ho
    by_cases hl : (g'.kind o).lang
    · obtain ⟨a, b, c, e⟩ := P.kindOld ho (.inr (.inr hl))
      have f := R.fits o a
      have i : ∀ i, fmt (g'.ins o i) = fmt (g.ins o i) := fun i => by
        have := (S.into L a i).fmt; rwa [S.wrOld _ b] at this
      have j : ∀ j, fmt (g'.outs o j) = fmt (g.outs o j) := fun j => (S.from L a c j).fmt
      unfold Fits at f ⊢
      rw [e]
      simp only [i, j]
      exact f
    · unfold Fits
      cases hk : g'.kind o <;> (try trivial) <;> (rw [hk] at hl; simp [Kind.lang] at hl)

  · obtain ⟨t1, t2, t3, t4⟩ := R.typed τ hτ
    refine ⟨fun c hc => ?_, fun o ho hx => ?_, fun o ho op hk h0 c hc hco => ?_, fun w hw w' hw' y kw kw' => ?_⟩
    · rcases mem_new.1 hc with ⟨d, hd, rfl⟩ | he
      · obtain ⟨u1, u2⟩ := t1 d hd
        constructor
        · show (g'.kind (so d.src)).src τ (so d.src) d.outlet d.ty
          by_cases hr : d.src ∈ rs
          · rw [((P.call.receives _).1 hr).2] at u1
            rcases S.sum with ⟨s0, h1, -, h3⟩ | ⟨-, h⟩
            · rw [h3 _ hr, (S.rdNew s0 (by simp [h1]) _ hr).2.2]; exact u1
            · rw [h _ hr]; exact u1
          · rw [S.soOld _ hr, S.kind _ (L.src d hd)]; exact u1
        · show (g'.kind (wr d.dst)).dst τ (wr d.dst) d.inlet d.ty
          by_cases hs : d.dst ∈ ss
          · rw [((P.call.sends _).1 hs).2.1] at u2
            rw [(S.wrNew _ hs).2.2]; exact u2
          · rw [S.wrOld _ hs, S.kind _ (L.dst d hd)]; exact u2
      · obtain ⟨s, hs, r, hr, e1, e2, e3, e4⟩ := S.edge he
        have hk : g'.kind (so r) = .irBin "__add~f" := by
          rcases S.sum with ⟨s0, -, h, -⟩ | ⟨-, h⟩
          · rw [h] at he; simp at he
          · exact h r hr
        rw [e1, e2, (S.rdNew s hs r hr).2.2, hk, e3, e4]
        exact ⟨⟨rfl, rfl⟩, S.edgeInlet he, rfl⟩
    · rcases (hids o).1 ho with ⟨a, -, -⟩ | ⟨a, b⟩
      · rw [S.kind o (L.below o a)] at hx
        exact t2 o a hx
      · exfalso
        rcases S.all o a b with ⟨s, hs, rfl | rfl⟩ | ⟨r, hr, rfl | ⟨s, hs, rfl⟩⟩
        · rw [(S.varNew s hs).2.2] at hx; simp [Kind.foreign] at hx
        · rw [(S.wrNew s hs).2.2] at hx; simp [Kind.foreign] at hx
        · rcases S.sum with ⟨s0, h1, -, h3⟩ | ⟨-, h⟩
          · rw [h3 r hr, (S.rdNew s0 (by simp [h1]) r hr).2.2] at hx; simp [Kind.foreign] at hx
          · rw [h r hr] at hx; simp [Kind.foreign] at hx
        · rw [(S.rdNew s hs r hr).2.2] at hx; simp [Kind.foreign] at hx
    · obtain ⟨a, b, c', e⟩ := P.kindOld ho (.inr (.inr (by rw [hk]; rfl)))
      have i : fmt (g'.ins o 0) = fmt (g.ins o 0) := by
        have := (S.into L a 0).fmt; rwa [S.wrOld _ b] at this
      rw [i] at h0
      rw [e] at hk
      have hon := L.below o a
      rcases mem_new.1 hc with ⟨d, hd, rfl⟩ | he
      · refine t3 o a op hk h0 d hd ?_
        have hco : so d.src = o := hco
        by_cases hs : d.src ∈ rs
        · have := (S.soNew _ hs).1; omega
        · rwa [S.soOld _ hs] at hco
      · exact (S.edge he).choose_spec.2.choose_spec.2.2.2.2
    · rcases (hids w).1 hw with ⟨a, -, -⟩ | ⟨a, b⟩
      · rcases (hids w').1 hw' with ⟨a', -, -⟩ | ⟨a', b'⟩
        · rw [S.kind w (L.below w a)] at kw
          rw [S.kind w' (L.below w' a')] at kw'
          exact t4 w a w' a' y kw kw'
        · obtain ⟨s, hs, e1, e2⟩ := (P.newKind a' b').2.2.1 _ kw'
          rw [e1]
          exact P.onlyWrite hs hw (e2 ▸ kw)
      · obtain ⟨s, hs, e1, e2⟩ := (P.newKind a b).2.2.1 _ kw
        rw [e1]
        exact (P.onlyWrite hs hw' (e2 ▸ kw')).symm

/-- the sends and receives that are left -/
theorem Post.posted (P : Post T g n M m ss rs g' n' wr var so rd E) : Posted g' (M.map (ren wr so) + ↑E) := by
  have S := P.shape
  have R := P.call.ready
  have L := P.call.place
  have Q := P.call.posted
  have hids := S.mem_ids L
  have hlive : ∀ k, Live.name g' k → Live.name g k := by
    rintro k ⟨s, hs, hk, h⟩
    obtain ⟨a, b, c, e⟩ := P.kindOld hs (.inl ⟨k, hk⟩)
    refine ⟨s, a, by rw [← e]; exact hk, ?_⟩
    have := (S.into L a 0).hasSignal
    rw [S.wrOld _ b] at this
    rw [← this]; exact h
  have hsrc : ∀ o ∈ g.ids, ∀ d ∈ M, so d.src = o → d.src = o := fun o ho d hd h => by
    have := L.below o ho
    by_cases hs : d.src ∈ rs
    · have := (S.soNew _ hs).1; omega
    · rwa [S.soOld _ hs] at h
  have hdst : ∀ o ∈ g.ids, ∀ d ∈ M, wr d.dst = o → d.dst = o := fun o ho d hd h => by
    have := L.below o ho
    by_cases hs : d.dst ∈ ss
    · have := (S.wrNew _ hs).1; omega
    · rwa [S.wrOld _ hs] at h
  have hedge : ∀ o ∈ g.ids, ∀ c ∈ E, c.src ≠ o ∧ c.dst ≠ o := fun o ho c hc => by
    obtain ⟨s, hs, r, hr, e1, e2, -⟩ := S.edge hc
    have := L.below o ho
    have := (S.soNew r hr).1
    have := (S.rdNew s hs r hr).1
    omega
  refine ⟨?_, ?_, ?_, ?_, ?_⟩
  · intro s hs k hk c hc
    obtain ⟨a, b, -, e⟩ := P.kindOld hs (.inl ⟨k, hk⟩)
    rcases mem_new.1 hc with ⟨d, hd, rfl⟩ | he
    · have := Q.send s a k (by rw [← e]; exact hk) d hd
      exact ⟨fun h => this.1 (hsrc s a d hd h), fun h => this.2 (hdst s a d hd h)⟩
    · exact ⟨(hedge s a c he).1, fun h => absurd h (hedge s a c he).2⟩
  · intro s hs k hk c hc
    obtain ⟨a, b, -, e⟩ := P.kindOld hs (.inr (.inl ⟨k, hk⟩))
    rcases mem_new.1 hc with ⟨d, hd, rfl⟩ | he
    · have := Q.receive s a k (by rw [← e]; exact hk) d hd
      exact ⟨fun h => this.1 (hdst s a d hd h), fun h => this.2 (hsrc s a d hd h)⟩
    · exact ⟨(hedge s a c he).2, fun h => absurd h (hedge s a c he).1⟩
  · intro k hl s hs hk c hc hcs
    obtain ⟨a, b, -, e⟩ := P.kindOld hs (.inl ⟨k, hk⟩)
    rcases mem_new.1 hc with ⟨d, hd, rfl⟩ | he
    · exact Q.sendTy k (hlive k hl) s a (by rw [← e]; exact hk) d hd (hdst s a d hd hcs)
    · exact absurd hcs (hedge s a c he).2
  · intro k hl s hs hk c hc hcs
    obtain ⟨a, b, -, e⟩ := P.kindOld hs (.inr (.inl ⟨k, hk⟩))
    rcases mem_new.1 hc with ⟨d, hd, rfl⟩ | he
    · exact Q.receiveTy k (hlive k hl) s a (by rw [← e]; exact hk) d hd (hsrc s a d hd hcs)
    · exact absurd hcs (hedge s a c he).1
  · intro w hw y hk
    rcases (hids w).1 hw with ⟨a, -, -⟩ | ⟨a, b⟩
    · rw [S.kind w (L.below w a)] at hk
      obtain ⟨h1, h2⟩ := Q.write w a y hk
      rw [S.kind y (L.below y h1)]
      exact ⟨(hids y).2 (.inl ⟨h1, fun h => by have := ((P.call.sends y).1 h).2.1; rw [h2] at this; simp at this,
        fun h => by have := ((P.call.receives y).1 h).2; rw [h2] at this; simp at this⟩), h2⟩
    · obtain ⟨s, hs, -, rfl⟩ := (P.newKind a b).2.2.1 y hk
      exact ⟨(hids _).2 (.inr ⟨(S.varNew s hs).1, (S.varNew s hs).2.1⟩), (S.varNew s hs).2.2⟩

/-- one name -/
theorem Post.mail (P : Post T g n M m ss rs g' n' wr var so rd E) (W : World α μ) :
    Mail W g g' n n' (fun p => p ∈ ss ∨ p ∈ rs) wr (reads ss rs rd) := by
  have S := P.shape
  have L := P.call.place
  have hids := S.mem_ids L
  refine ⟨S.le, ?_, S.kind, ?_, ?_, ?_, ?_, ?_, ?_, ?_, ?_, ?_, fun log hlog => P.signals W hlog⟩
  · intro p hp
    rw [hids p]
    constructor
    · rintro (⟨a, b, c⟩ | ⟨a, -⟩)
      · exact ⟨a, fun h => h.elim b c⟩
      · omega
    · rintro ⟨a, b⟩
      exact .inl ⟨a, fun h => b (.inl h), fun h => b (.inr h)⟩
  · intro p hp hD j
    exact S.order p (L.below p hp) (fun h => hD (.inr h)) j
  · intro p hp hD i
    have := (S.into L hp i).hasSignal
    rwa [S.wrOld p fun h => hD (.inl h)] at this
  · intro p hD
    exact S.wrOld p fun h => hD (.inl h)
  · intro s hs hD hk
    rcases hD with h | h
    · exact (S.wrNew s h).1
    · exact absurd ((P.call.receives s).1 h).2 (hk m)
  · intro s hs hk
    by_cases h : s ∈ ss
    · exact P.writeMem h
    · rw [S.wrOld s h]
      exact (hids s).2 (.inl ⟨hs, h, fun h => hk m ((P.call.receives s).1 h).2⟩)
  · intro s hs q hq _ _ e
    have h1 := L.below s hs
    have h2 := L.below q hq
    by_cases a : s ∈ ss <;> by_cases b : q ∈ ss
    · exact S.wrInj s a q b e
    · rw [S.wrOld q b] at e; have := (S.wrNew s a).1; omega
    · rw [S.wrOld s a] at e; have := (S.wrNew q b).1; omega
    · rw [S.wrOld s a, S.wrOld q b] at e; exact e
  · intro p q hD
    rw [reads, if_neg]
    rintro ⟨a, b⟩
    exact hD ⟨.inl a, .inr b⟩
  · intro w hw hn
    rcases (hids w).1 hw with ⟨a, -⟩ | ⟨a, b⟩
    · have := L.below w a; omega
    · have := P.newKind a b
      refine ⟨this.1, this.2.1, fun y hy => ?_⟩
      obtain ⟨s, hs, -, rfl⟩ := this.2.2.1 y hy
      exact (S.varNew s hs).1
  · intro s r k hs hr ks kr
    have hs : s ∈ ss := hs.resolve_right fun h => by
      have := ((P.call.receives s).1 h).2; rw [ks] at this; simp at this
    have hr : r ∈ rs := hr.resolve_left fun h => by
      have := ((P.call.sends r).1 h).2.1; rw [kr] at this; simp at this
    have hv := S.varNew s hs
    have hw := S.wrNew s hs
    have hd := S.rdNew s hs r hr
    have er : reads ss rs rd s r = rd s r := if_pos ⟨hs, hr⟩
    rw [er]
    exact ⟨var s, (hids _).2 (.inr ⟨hv.1, hv.2.1⟩), hv.2.2, P.writeMem hs, hw.2.2, fun w h1 h2 => P.onlyWrite hs h1 h2,
      (hids _).2 (.inr ⟨hd.1, hd.2.1⟩), hd.2.2⟩

end Verif.Reduce
