import Verif.PdRemote

/-!
C55: remote messages of message boxes and the send and receive names of GUI boxes are delivered.

In Pd, whatever reaches a message box `\; r m` makes `m` be sent to `r`; whatever leaves a GUI box with a send name is also
sent to that name, and whatever is sent to its receive name reaches it.  Heavy's Pd parser realises this by adding
objects.  The theorems say which of these deliveries the compiled graph has: exactly those of the canvas of a file, and of
a remote message only what comes from outlet 0 of the object above; in a subpatch there are none.
-/
namespace Verif.PdRemote

/-! ### Specification -/

/-- a statement that makes an object -/
def Line.isObj : Line → Bool
  | .connect _ => false
  | _ => true

/-- the objects of the file, in their order: their positions are the numbers that connections use -/
def objects (ls : List Line) : List Line := ls.filter Line.isObj

/-- the file connects the two objects, after both of them -/
def Connected (ls : List Line) (c : Conn) : Prop :=
  ∃ pre post, ls = pre ++ .connect c :: post ∧ c.src < (objects pre).length ∧ c.dst < (objects pre).length

/-- in the graph, what leaves outlet `o` of object `u` makes the message `m` be sent to the name `r` -/
def Delivers (g : Graph) (u o m r : Nat) : Prop :=
  ∃ i j, g.nodes[i]? = some (.msg m) ∧ g.nodes[j]? = some (.send r) ∧ ⟨u, o, i, 0⟩ ∈ g.conns ∧ ⟨i, 0, j, 0⟩ ∈ g.conns

/-- in the graph, what leaves outlet `o` of object `b` is sent to the name `r` -/
def SendsTo (g : Graph) (b o r : Nat) : Prop := ∃ j, g.nodes[j]? = some (.send r) ∧ ⟨b, o, j, 0⟩ ∈ g.conns

/-- in the graph, what is sent to the name `r` reaches the left inlet of object `b` -/
def HearsFrom (g : Graph) (b r : Nat) : Prop := ∃ j, g.nodes[j]? = some (.receive r) ∧ ⟨j, 0, b, 0⟩ ∈ g.conns

/-! ### The state after the statements -/

structure Read (ls : List Line) (s : State) : Prop where
  nodes : s.g.nodes = List.replicate (objects ls).length .other
  conns : ∀ c, c ∈ s.g.conns ↔ Connected ls c
  msgs : ∀ b rs, (b, rs) ∈ s.msgSend ↔ (objects ls)[b]? = some (.msg rs)
  sends : ∀ b n, (b, n) ∈ s.guiSend ↔ ∃ r, (objects ls)[b]? = some (.gui (some n) r)
  recvs : ∀ b n, (b, n) ∈ s.guiRecv ↔ ∃ r, (objects ls)[b]? = some (.gui r (some n))

theorem objects_snoc_obj {l : Line} (ls : List Line) (h : l.isObj = true) : objects (ls ++ [l]) = objects ls ++ [l] := by
  simp [objects, List.filter_append, h]

theorem objects_snoc_conn (ls : List Line) (c : Conn) : objects (ls ++ [.connect c]) = objects ls := by
  simp [objects, List.filter_append, Line.isObj]

theorem connected_snoc (ls : List Line) (l : Line) (c : Conn) : Connected (ls ++ [l]) c ↔
    Connected ls c ∨ (l = .connect c ∧ c.src < (objects ls).length ∧ c.dst < (objects ls).length) := by
  constructor
  · rintro ⟨pre, post, h, h1, h2⟩
    rcases List.eq_nil_or_concat post with rfl | ⟨post, x, rfl⟩
    · have := List.append_inj' h (by simp)
      obtain ⟨rfl, h⟩ := this
      simp at h
      exact .inr ⟨h, h1, h2⟩
    · rw [List.concat_eq_append, ← List.cons_append, ← List.append_assoc] at h
      obtain ⟨rfl, h⟩ := List.append_inj' h (by simp)
      exact .inl ⟨pre, post, rfl, h1, h2⟩
  · rintro (⟨pre, post, rfl, h1, h2⟩ | ⟨rfl, h1, h2⟩)
    · exact ⟨pre, post ++ [l], by simp, h1, h2⟩
    · exact ⟨ls, [], rfl, h1, h2⟩

theorem snoc_get {α : Type} (l : List α) (x y : α) (b : Nat) :
    (l ++ [x])[b]? = some y ↔ l[b]? = some y ∨ (b = l.length ∧ x = y) := by
  rw [List.getElem?_append]
  split
  · rename_i h
    constructor
    · exact .inl
    · rintro (h' | ⟨rfl, _⟩)
      · exact h'
      · omega
  · rename_i h
    have hn : l[b]? = none := List.getElem?_eq_none (by omega)
    rw [hn]
    constructor
    · intro h'
      obtain ⟨hb, _⟩ := List.getElem?_eq_some_iff.1 h'
      simp at hb
      have : b = l.length := by omega
      subst this
      simp at h'
      exact .inr ⟨rfl, h'⟩
    · rintro (h' | ⟨rfl, rfl⟩)
      · cases h'
      · simp

theorem read (ls : List Line) : Read ls (ls.foldl step start) := by
  rcases List.eq_nil_or_concat ls with rfl | ⟨ls, l, rfl⟩
  · refine ⟨rfl, fun c => ?_, ?_, ?_, ?_⟩
    · simp only [List.foldl_nil, start, List.not_mem_nil, false_iff]
      rintro ⟨pre, post, h, _⟩
      simp at h
    all_goals intros; simp [start, objects]
  · have ih := read ls
    rw [List.concat_eq_append, List.foldl_append]
    simp only [List.foldl_cons, List.foldl_nil]
    generalize ls.foldl step start = s at ih
    have hlen : s.g.nodes.length = (objects ls).length := by rw [ih.nodes]; simp
    cases l with
    | connect c =>
      have hc : ∀ c', c' ∈ (s.g.connect c).conns ↔ Connected (ls ++ [.connect c]) c' := by
        intro c'
        rw [connected_snoc, ← ih.conns]
        unfold Graph.connect
        rw [hlen]
        split
        · rename_i h
          simp only [List.mem_append, List.mem_singleton, Line.connect.injEq]
          constructor
          · rintro (h' | rfl)
            · exact .inl h'
            · exact .inr ⟨rfl, h⟩
          · rintro (h' | ⟨rfl, _⟩)
            · exact .inl h'
            · exact .inr rfl
        · rename_i h
          constructor
          · exact .inl
          · rintro (h' | ⟨h', hh⟩)
            · exact h'
            · cases h'
              exact absurd hh h
      have hn : (s.g.connect c).nodes = s.g.nodes := by unfold Graph.connect; split <;> rfl
      refine ⟨?_, hc, ?_, ?_, ?_⟩
      · rw [objects_snoc_conn]; exact hn.trans ih.nodes
      · rw [objects_snoc_conn]; exact ih.msgs
      · rw [objects_snoc_conn]; exact ih.sends
      · rw [objects_snoc_conn]; exact ih.recvs
    | obj =>
      have ho := objects_snoc_obj ls (l := .obj) rfl
      refine ⟨?_, fun c => ?_, fun b rs => ?_, fun b n => ?_, fun b n => ?_⟩
      · rw [ho]; simp [step, Graph.add, ih.nodes, List.replicate_succ']
      · rw [connected_snoc]; simpa [step, Graph.add] using ih.conns c
      · rw [ho, snoc_get]; simpa [step] using ih.msgs b rs
      · rw [ho]; simp only [snoc_get]; simpa [step] using ih.sends b n
      · rw [ho]; simp only [snoc_get]; simpa [step] using ih.recvs b n
    | msg remotes =>
      have ho := objects_snoc_obj ls (l := .msg remotes) rfl
      refine ⟨?_, fun c => ?_, fun b rs => ?_, fun b n => ?_, fun b n => ?_⟩
      · rw [ho]; simp [step, Graph.add, ih.nodes, List.replicate_succ']
      · rw [connected_snoc]; simpa [step, Graph.add] using ih.conns c
      · rw [ho, snoc_get]
        simp only [step, List.mem_append, List.mem_singleton, Prod.mk.injEq, ih.msgs, hlen, Line.msg.injEq]
        constructor
        · rintro (h | ⟨h, rfl⟩)
          · exact .inl h
          · exact .inr ⟨h, rfl⟩
        · rintro (h | ⟨h, rfl⟩)
          · exact .inl h
          · exact .inr ⟨h, rfl⟩
      · rw [ho]; simp only [snoc_get]; simpa [step] using ih.sends b n
      · rw [ho]; simp only [snoc_get]; simpa [step] using ih.recvs b n
    | gui snd rcv =>
      have ho := objects_snoc_obj ls (l := .gui snd rcv) rfl
      refine ⟨?_, fun c => ?_, fun b rs => ?_, fun b n => ?_, fun b n => ?_⟩
      · rw [ho]; simp [step, Graph.add, ih.nodes, List.replicate_succ']
      · rw [connected_snoc]; simpa [step, Graph.add] using ih.conns c
      · rw [ho, snoc_get]; simpa [step] using ih.msgs b rs
      · rw [ho]; simp only [snoc_get, step, List.mem_append, ih.sends, hlen]
        cases snd with
        | none => simp
        | some k =>
          simp only [List.mem_singleton, Prod.mk.injEq, Line.gui.injEq, Option.some.injEq]
          constructor
          · rintro (⟨r, h⟩ | ⟨h, rfl⟩)
            · exact ⟨r, .inl h⟩
            · exact ⟨rcv, .inr ⟨h, rfl, rfl⟩⟩
          · rintro ⟨r, h | ⟨h, rfl, _⟩⟩
            · exact .inl ⟨r, h⟩
            · exact .inr ⟨h, rfl⟩
      · rw [ho]; simp only [snoc_get, step, List.mem_append, ih.recvs, hlen]
        cases rcv with
        | none => simp
        | some k =>
          simp only [List.mem_singleton, Prod.mk.injEq, Line.gui.injEq, Option.some.injEq]
          constructor
          · rintro (⟨r, h⟩ | ⟨h, rfl⟩)
            · exact ⟨r, .inl h⟩
            · exact ⟨snd, .inr ⟨h, rfl, rfl⟩⟩
          · rintro ⟨r, h | ⟨h, _, rfl⟩⟩
            · exact .inl ⟨r, h⟩
            · exact .inr ⟨h, rfl⟩
termination_by ls.length
decreasing_by simp_all

/-! ### What the added objects do -/

/-- `g'` has everything of `g`, at the same places -/
structure Ext (g g' : Graph) : Prop where
  nodes : ∃ ns, g'.nodes = g.nodes ++ ns
  conns : ∃ cs, g'.conns = g.conns ++ cs
  errors : g'.errors = g.errors

theorem Ext.refl (g : Graph) : Ext g g := ⟨⟨[], by simp⟩, ⟨[], by simp⟩, rfl⟩

theorem Ext.trans {a b c : Graph} (h : Ext a b) (h' : Ext b c) : Ext a c := by
  obtain ⟨⟨n, hn⟩, ⟨k, hk⟩, he⟩ := h
  obtain ⟨⟨n', hn'⟩, ⟨k', hk'⟩, he'⟩ := h'
  exact ⟨⟨n ++ n', by rw [hn', hn]; simp⟩, ⟨k ++ k', by rw [hk', hk]; simp⟩, he'.trans he⟩

theorem Ext.node {g g' : Graph} (h : Ext g g') {i : Nat} {x : Node} (hi : g.nodes[i]? = some x) : g'.nodes[i]? = some x := by
  obtain ⟨ns, hn⟩ := h.nodes
  rw [hn, List.getElem?_append_left (List.getElem?_eq_some_iff.1 hi).1, hi]

theorem Ext.conn {g g' : Graph} (h : Ext g g') {c : Conn} (hc : c ∈ g.conns) : c ∈ g'.conns := by
  obtain ⟨cs, hk⟩ := h.conns
  rw [hk]
  exact List.mem_append_left _ hc

theorem ext_add (g : Graph) (n : Node) : Ext g (g.add n) := ⟨⟨[n], rfl⟩, ⟨[], by simp [Graph.add]⟩, rfl⟩

theorem ext_connect (g : Graph) (c : Conn) (h : c.src < g.nodes.length ∧ c.dst < g.nodes.length) : Ext g (g.connect c) := by
  unfold Graph.connect
  rw [if_pos h]
  exact ⟨⟨[], by simp⟩, ⟨[c], rfl⟩, rfl⟩

theorem connect_all (m : Nat) (cs : List Conn) (g : Graph) (hm : m < g.nodes.length)
    (hcs : ∀ c ∈ cs, c.src < g.nodes.length) :
    cs.foldl (fun g c => g.connect ⟨c.src, 0, m, 0⟩) g
      = { g with conns := g.conns ++ cs.map fun c => ⟨c.src, 0, m, 0⟩ } := by
  induction cs generalizing g with
  | nil => simp
  | cons c cs ih =>
    have h1 : g.connect ⟨c.src, 0, m, 0⟩ = { g with conns := g.conns ++ [⟨c.src, 0, m, 0⟩] } := by
      unfold Graph.connect
      rw [if_pos ⟨hcs c (by simp), hm⟩]
    rw [List.foldl_cons, h1]
    refine (ih { g with conns := g.conns ++ [⟨c.src, 0, m, 0⟩] } hm (fun c hc => hcs c (by simp [hc]))).trans ?_
    simp

theorem addRemote_eq (cs : List Conn) (g : Graph) (r : Nat × Nat) (hcs : ∀ c ∈ cs, c.src < g.nodes.length) :
    addRemote cs g r
      = { g with nodes := g.nodes ++ [.msg r.2, .send r.1],
                 conns := g.conns ++ (cs.map fun c => ⟨c.src, 0, g.nodes.length, 0⟩)
                            ++ [⟨g.nodes.length, 0, g.nodes.length + 1, 0⟩] } := by
  unfold addRemote
  simp only []
  rw [connect_all _ _ _ (by simp [Graph.add]) (fun c hc => by have := hcs c hc; simp [Graph.add]; omega)]
  unfold Graph.connect
  rw [if_pos (by simp [Graph.add])]
  simp [Graph.add]

theorem addSend_eq (g : Graph) (b : Nat × Nat) (h : b.1 < g.nodes.length) :
    addSend g b = { g with nodes := g.nodes ++ [.send b.2], conns := g.conns ++ [⟨b.1, 0, g.nodes.length, 0⟩] } := by
  unfold addSend Graph.connect
  rw [if_pos (by simp [Graph.add]; omega)]
  simp [Graph.add]

theorem addRecv_eq (g : Graph) (b : Nat × Nat) (h : b.1 < g.nodes.length) :
    addRecv g b = { g with nodes := g.nodes ++ [.receive b.2], conns := g.conns ++ [⟨g.nodes.length, 0, b.1, 0⟩] } := by
  unfold addRecv Graph.connect
  rw [if_pos (by simp [Graph.add]; omega)]
  simp [Graph.add]

/-- why a connection of the graph is there -/
inductive Why (s : State) (g : Graph) (c : Conn) : Prop
  | file (h : c ∈ s.g.conns)
  | up (m r b o : Nat) (rs : List (Nat × Nat)) (h1 : g.nodes[c.dst]? = some (.msg m))
      (h2 : g.nodes[c.dst + 1]? = some (.send r)) (h3 : c.outlet = 0) (h4 : (b, rs) ∈ s.msgSend) (h5 : (r, m) ∈ rs)
      (h6 : ⟨c.src, o, b, 0⟩ ∈ s.g.conns) (h7 : c.src ≠ b)
  | pair (m r : Nat) (h1 : g.nodes[c.src]? = some (.msg m)) (h2 : c.dst = c.src + 1)
      (h3 : g.nodes[c.dst]? = some (.send r))
  | gsend (r : Nat) (h1 : g.nodes[c.dst]? = some (.send r)) (h2 : (c.src, r) ∈ s.guiSend) (h3 : c.outlet = 0)
  | grecv (r : Nat) (h1 : g.nodes[c.src]? = some (.receive r)) (h2 : (c.dst, r) ∈ s.guiRecv) (h3 : c.inlet = 0)

theorem Why.mono {s : State} {g g' : Graph} {c : Conn} (h : Why s g c) (he : Ext g g') : Why s g' c := by
  cases h with
  | file h => exact .file h
  | up m r b o rs h1 h2 h3 h4 h5 h6 h7 => exact .up m r b o rs (he.node h1) (he.node h2) h3 h4 h5 h6 h7
  | pair m r h1 h2 h3 => exact .pair m r (he.node h1) h2 (he.node h3)
  | gsend r h1 h2 h3 => exact .gsend r (he.node h1) h2 h3
  | grecv r h1 h2 h3 => exact .grecv r (he.node h1) h2 h3

theorem ext_remote (cs : List Conn) (g : Graph) (r : Nat × Nat) (hcs : ∀ c ∈ cs, c.src < g.nodes.length) :
    Ext g (addRemote cs g r) := by
  rw [addRemote_eq cs g r hcs]
  exact ⟨⟨_, rfl⟩, ⟨_, by simp only [List.append_assoc]; rfl⟩, rfl⟩

theorem get_new0 (l : List Node) (x : Node) (t : List Node) : (l ++ x :: t)[l.length]? = some x := by simp

theorem get_new1 (l : List Node) (x y : Node) (t : List Node) : (l ++ x :: y :: t)[l.length + 1]? = some y := by
  rw [List.getElem?_append_right (by omega)]; simp

/-- adding the remote messages of one box -/
theorem addMsg_spec (s : State) (g : Graph) (b : Nat) (all : List (Nat × Nat)) (hb : (b, all) ∈ s.msgSend)
    (cs : List Conn) (hcs : ∀ c ∈ cs, c ∈ s.g.conns ∧ c.dst = b ∧ c.inlet = 0 ∧ c.src ≠ b)
    (hlt : ∀ c ∈ s.g.conns, c.src < s.g.nodes.length ∧ c.dst < s.g.nodes.length)
    (rs : List (Nat × Nat)) (hrs : ∀ r ∈ rs, r ∈ all) (he : Ext s.g g) (hw : ∀ c ∈ g.conns, Why s g c)
    (ho : ∀ c ∈ g.conns, c.dst < s.g.nodes.length → c ∈ s.g.conns) :
    let g' := rs.foldl (addRemote cs) g
    Ext g g' ∧ (∀ c ∈ g'.conns, Why s g' c) ∧ (∀ c ∈ g'.conns, c.dst < s.g.nodes.length → c ∈ s.g.conns)
      ∧ ∀ r ∈ rs, ∀ c ∈ cs, Delivers g' c.src 0 r.2 r.1 := by
  induction rs generalizing g with
  | nil => exact ⟨Ext.refl g, hw, ho, fun r hr => by simp at hr⟩
  | cons r rs ih =>
    have hlen : s.g.nodes.length ≤ g.nodes.length := by obtain ⟨ns, h⟩ := he.nodes; rw [h]; simp
    have hcs' : ∀ c ∈ cs, c.src < g.nodes.length := fun c hc => by
      have := (hlt c (hcs c hc).1).1
      omega
    have h1 := ext_remote cs g r hcs'
    have heq := addRemote_eq cs g r hcs'
    simp only [List.foldl_cons]
    have hm : (addRemote cs g r).nodes[g.nodes.length]? = some (.msg r.2) := by rw [heq]; exact get_new0 _ _ _
    have hs : (addRemote cs g r).nodes[g.nodes.length + 1]? = some (.send r.1) := by rw [heq]; exact get_new1 _ _ _ _
    have hcon : ∀ c, c ∈ (addRemote cs g r).conns ↔ c ∈ g.conns ∨ (∃ a ∈ cs, c = ⟨a.src, 0, g.nodes.length, 0⟩)
        ∨ c = ⟨g.nodes.length, 0, g.nodes.length + 1, 0⟩ := by
      intro c
      rw [heq]
      simp only [List.mem_append, List.mem_map, List.mem_singleton, or_assoc, eq_comm (a := c)]
    have hw' : ∀ c ∈ (addRemote cs g r).conns, Why s (addRemote cs g r) c := by
      intro c hc
      rcases (hcon c).1 hc with h | ⟨a, ha, rfl⟩ | rfl
      · exact (hw c h).mono h1
      · obtain ⟨h6, h7, h8, h9⟩ := hcs a ha
        refine .up r.2 r.1 b a.outlet all hm hs rfl hb (hrs r (by simp)) ?_ h9
        obtain ⟨a1, a2, a3, a4⟩ := a
        simp only at h7 h8
        subst h7 h8
        exact h6
      · exact .pair r.2 r.1 hm rfl hs
    have ho' : ∀ c ∈ (addRemote cs g r).conns, c.dst < s.g.nodes.length → c ∈ s.g.conns := by
      intro c hc hd
      rcases (hcon c).1 hc with h | ⟨a, ha, rfl⟩ | rfl
      · exact ho c h hd
      · simp only at hd; omega
      · simp only at hd; omega
    obtain ⟨i1, i2, i3, i4⟩ := ih _ (fun r hr => hrs r (by simp [hr])) (he.trans h1) hw' ho'
    refine ⟨h1.trans i1, i2, i3, fun r' hr' c hc => ?_⟩
    rcases List.mem_cons.1 hr' with rfl | hr'
    · exact ⟨_, _, i1.node hm, i1.node hs, i1.conn ((hcon _).2 (.inr (.inl ⟨c, hc, rfl⟩))),
        i1.conn ((hcon _).2 (.inr (.inr rfl)))⟩
    · exact i4 r' hr' c hc

theorem addMsgs_spec (s : State) (hlt : ∀ c ∈ s.g.conns, c.src < s.g.nodes.length ∧ c.dst < s.g.nodes.length)
    (bs : List (Nat × List (Nat × Nat))) (hbs : ∀ b ∈ bs, b ∈ s.msgSend ∧ b.1 < s.g.nodes.length) (g : Graph)
    (he : Ext s.g g) (hw : ∀ c ∈ g.conns, Why s g c)
    (ho : ∀ c ∈ g.conns, c.dst < s.g.nodes.length → c ∈ s.g.conns) :
    let g' := bs.foldl addMsg g
    Ext g g' ∧ (∀ c ∈ g'.conns, Why s g' c)
      ∧ ∀ b ∈ bs, ∀ r ∈ b.2, ∀ c ∈ s.g.conns, c.dst = b.1 → c.inlet = 0 → c.src ≠ b.1 → Delivers g' c.src 0 r.2 r.1 := by
  induction bs generalizing g with
  | nil => exact ⟨Ext.refl g, hw, fun b hb => by simp at hb⟩
  | cons b bs ih =>
    obtain ⟨hb, hbl⟩ := hbs b (by simp)
    have hcs : ∀ c ∈ inletConns g b.1, c ∈ s.g.conns ∧ c.dst = b.1 ∧ c.inlet = 0 ∧ c.src ≠ b.1 := by
      intro c hc
      simp only [inletConns, List.mem_filter, decide_eq_true_eq] at hc
      exact ⟨ho c hc.1 (by omega), hc.2⟩
    obtain ⟨a1, a2, a3, a4⟩ := addMsg_spec s g b.1 b.2 hb _ hcs hlt b.2 (fun r h => h) he hw ho
    simp only [List.foldl_cons]
    obtain ⟨i1, i2, i3⟩ := ih (fun b hb => hbs b (by simp [hb])) (addMsg g b) (he.trans a1) a2 a3
    refine ⟨a1.trans i1, i2, fun b' hb' r hr c hc h1 h2 h3 => ?_⟩
    rcases List.mem_cons.1 hb' with rfl | hb'
    · obtain ⟨i, j, d1, d2, d3, d4⟩ := a4 r hr c (by
        simp only [inletConns, List.mem_filter, decide_eq_true_eq]
        exact ⟨he.conn hc, h1, h2, h3⟩)
      exact ⟨i, j, i1.node d1, i1.node d2, i1.conn d3, i1.conn d4⟩
    · exact i3 b' hb' r hr c hc h1 h2 h3

theorem addSends_spec (s : State) (bs : List (Nat × Nat)) (hbs : ∀ b ∈ bs, b ∈ s.guiSend ∧ b.1 < s.g.nodes.length)
    (g : Graph) (he : Ext s.g g) (hw : ∀ c ∈ g.conns, Why s g c) :
    let g' := bs.foldl addSend g
    Ext g g' ∧ (∀ c ∈ g'.conns, Why s g' c) ∧ ∀ b ∈ bs, SendsTo g' b.1 0 b.2 := by
  induction bs generalizing g with
  | nil => exact ⟨Ext.refl g, hw, fun b hb => by simp at hb⟩
  | cons b bs ih =>
    obtain ⟨hb, hbl⟩ := hbs b (by simp)
    have hlen : s.g.nodes.length ≤ g.nodes.length := by obtain ⟨ns, h⟩ := he.nodes; rw [h]; simp
    have heq := addSend_eq g b (by omega)
    have h1 : Ext g (addSend g b) := by rw [heq]; exact ⟨⟨_, rfl⟩, ⟨_, rfl⟩, rfl⟩
    have hn : (addSend g b).nodes[g.nodes.length]? = some (.send b.2) := by rw [heq]; exact get_new0 _ _ _
    have hw' : ∀ c ∈ (addSend g b).conns, Why s (addSend g b) c := by
      intro c hc
      have hc' : c ∈ g.conns ∨ c = ⟨b.1, 0, g.nodes.length, 0⟩ := by rw [heq] at hc; simpa using hc
      rcases hc' with h | rfl
      · exact (hw c h).mono h1
      · exact .gsend b.2 hn hb rfl
    simp only [List.foldl_cons]
    obtain ⟨i1, i2, i3⟩ := ih (fun b hb => hbs b (by simp [hb])) (addSend g b) (he.trans h1) hw'
    refine ⟨h1.trans i1, i2, fun b' hb' => ?_⟩
    rcases List.mem_cons.1 hb' with rfl | hb'
    · exact ⟨_, i1.node hn, i1.conn (by rw [heq]; simp)⟩
    · exact i3 b' hb'

theorem addRecvs_spec (s : State) (bs : List (Nat × Nat)) (hbs : ∀ b ∈ bs, b ∈ s.guiRecv ∧ b.1 < s.g.nodes.length)
    (g : Graph) (he : Ext s.g g) (hw : ∀ c ∈ g.conns, Why s g c) :
    let g' := bs.foldl addRecv g
    Ext g g' ∧ (∀ c ∈ g'.conns, Why s g' c) ∧ ∀ b ∈ bs, HearsFrom g' b.1 b.2 := by
  induction bs generalizing g with
  | nil => exact ⟨Ext.refl g, hw, fun b hb => by simp at hb⟩
  | cons b bs ih =>
    obtain ⟨hb, hbl⟩ := hbs b (by simp)
    have hlen : s.g.nodes.length ≤ g.nodes.length := by obtain ⟨ns, h⟩ := he.nodes; rw [h]; simp
    have heq := addRecv_eq g b (by omega)
    have h1 : Ext g (addRecv g b) := by rw [heq]; exact ⟨⟨_, rfl⟩, ⟨_, rfl⟩, rfl⟩
    have hn : (addRecv g b).nodes[g.nodes.length]? = some (.receive b.2) := by rw [heq]; exact get_new0 _ _ _
    have hw' : ∀ c ∈ (addRecv g b).conns, Why s (addRecv g b) c := by
      intro c hc
      have hc' : c ∈ g.conns ∨ c = ⟨g.nodes.length, 0, b.1, 0⟩ := by rw [heq] at hc; simpa using hc
      rcases hc' with h | rfl
      · exact (hw c h).mono h1
      · exact .grecv b.2 hn hb rfl
    simp only [List.foldl_cons]
    obtain ⟨i1, i2, i3⟩ := ih (fun b hb => hbs b (by simp [hb])) (addRecv g b) (he.trans h1) hw'
    refine ⟨h1.trans i1, i2, fun b' hb' => ?_⟩
    rcases List.mem_cons.1 hb' with rfl | hb'
    · exact ⟨_, i1.node hn, i1.conn (by rw [heq]; simp)⟩
    · exact i3 b' hb'

theorem get_lt {α : Type} {l : List α} {i : Nat} {x : α} (h : l[i]? = some x) : i < l.length :=
  (List.getElem?_eq_some_iff.1 h).1

theorem read_lt (ls : List Line) (s : State) (hr : Read ls s) :
    ∀ c ∈ s.g.conns, c.src < s.g.nodes.length ∧ c.dst < s.g.nodes.length := by
  intro c hc
  obtain ⟨pre, post, h, h1, h2⟩ := (hr.conns c).1 hc
  rw [hr.nodes, List.length_replicate, h]
  simp only [objects, List.filter_append, List.length_append] at h1 h2 ⊢
  omega

/-- everything about the graph of a file -/
theorem file_spec (ls : List Line) :
    let s := ls.foldl step start
    Ext s.g (file ls) ∧ (∀ c ∈ (file ls).conns, Why s (file ls) c)
    ∧ (∀ b rs, (objects ls)[b]? = some (.msg rs) → ∀ r ∈ rs, ∀ c, Connected ls c → c.dst = b → c.inlet = 0 → c.src ≠ b →
        Delivers (file ls) c.src 0 r.2 r.1)
    ∧ (∀ b n r, (objects ls)[b]? = some (.gui (some n) r) → SendsTo (file ls) b 0 n)
    ∧ ∀ b n r, (objects ls)[b]? = some (.gui r (some n)) → HearsFrom (file ls) b n := by
  intro s
  have hr : Read ls s := read ls
  have hn : s.g.nodes.length = (objects ls).length := by rw [hr.nodes]; simp
  obtain ⟨a1, a2, a3⟩ := addMsgs_spec s (read_lt ls s hr) s.msgSend
    (fun b hb => ⟨hb, by rw [hn]; exact get_lt ((hr.msgs b.1 b.2).1 hb)⟩) s.g (Ext.refl _) (fun c hc => .file hc)
    (fun c hc _ => hc)
  obtain ⟨b1, b2, b3⟩ := addSends_spec s s.guiSend
    (fun b hb => ⟨hb, by obtain ⟨r, h⟩ := (hr.sends b.1 b.2).1 hb; rw [hn]; exact get_lt h⟩) _ a1 a2
  obtain ⟨c1, c2, c3⟩ := addRecvs_spec s s.guiRecv
    (fun b hb => ⟨hb, by obtain ⟨r, h⟩ := (hr.recvs b.1 b.2).1 hb; rw [hn]; exact get_lt h⟩) _ (a1.trans b1) b2
  refine ⟨(a1.trans b1).trans c1, c2, ?_, ?_, ?_⟩
  · intro b rs hb r hr' c hc h1 h2 h3
    obtain ⟨i, j, d1, d2, d3, d4⟩ := a3 (b, rs) ((hr.msgs b rs).2 hb) r hr' c ((hr.conns c).2 hc) h1 h2 h3
    have e := b1.trans c1
    exact ⟨i, j, e.node d1, e.node d2, e.conn d3, e.conn d4⟩
  · intro b n r hb
    obtain ⟨j, d1, d2⟩ := b3 (b, n) ((hr.sends b n).2 ⟨r, hb⟩)
    exact ⟨j, c1.node d1, c1.conn d2⟩
  · intro b n r hb
    exact c3 (b, n) ((hr.recvs b n).2 ⟨r, hb⟩)

/-! ### The theorems -/

/-- The objects and connections of the file itself are unchanged: same numbers, same order; and no error is added. -/
theorem original_kept (ls : List Line) :
    (file ls).nodes.take (objects ls).length = List.replicate (objects ls).length .other
    ∧ (∃ cs, (file ls).conns = (subpatch ls).conns ++ cs) ∧ (∀ c, c ∈ (subpatch ls).conns ↔ Connected ls c)
    ∧ (file ls).errors = (subpatch ls).errors := by
  obtain ⟨h1, _⟩ := file_spec ls
  have hr := read ls
  obtain ⟨ns, hn⟩ := h1.nodes
  refine ⟨?_, h1.conns, hr.conns, h1.errors⟩
  rw [hn, hr.nodes, List.take_left' (by simp)]

/-- C55, remote messages.  In the canvas of a file: for a message box with the remote message `m` for `r`, and any
connection of the file to its inlet from another object, everything that leaves outlet 0 of that object makes `m` be sent
to `r`.

Partial: the connection of the file may leave another outlet than 0, and then what leaves *that* outlet is not delivered,
see `remote_exactly`; and in a subpatch nothing is, see `subpatch_delivers_nothing`. -/
theorem remote_delivered_partial (ls : List Line) (b u o : Nat) (rs : List (Nat × Nat)) (r m : Nat)
    (hbox : (objects ls)[b]? = some (.msg rs)) (hrm : (r, m) ∈ rs) (hconn : Connected ls ⟨u, o, b, 0⟩) (hne : u ≠ b) :
    Delivers (file ls) u 0 m r := by
  obtain ⟨_, _, h, _⟩ := file_spec ls
  exact h b rs hbox (r, m) hrm ⟨u, o, b, 0⟩ hconn rfl rfl hne

theorem old_node {ls : List Line} {i : Nat} (hi : i < (objects ls).length) : (file ls).nodes[i]? = some .other := by
  obtain ⟨h1, _⟩ := file_spec ls
  refine h1.node ?_
  rw [(read ls).nodes, List.getElem?_replicate, if_pos hi]

/-- No other remote message is sent: what is delivered comes from outlet 0 of an object that the file connects to a message
box with that remote message. -/
theorem remote_exactly (ls : List Line) (u o m r : Nat) (h : Delivers (file ls) u o m r) :
    o = 0 ∧ ∃ b rs o', (objects ls)[b]? = some (.msg rs) ∧ (r, m) ∈ rs ∧ Connected ls ⟨u, o', b, 0⟩ ∧ u ≠ b := by
  obtain ⟨i, j, hi, hj, hu, hp⟩ := h
  obtain ⟨h1, hw, _⟩ := file_spec ls
  have hr := read ls
  have hn : (ls.foldl step start).g.nodes.length = (objects ls).length := by rw [hr.nodes]; simp
  have hnot : ¬ i < (objects ls).length := fun hlt => by rw [old_node hlt] at hi; cases hi
  have hji : j = i + 1 := by
    rcases hw _ hp with h | ⟨m', r', b, o', rs, h1, h2, h3, h4, h5, h6, h7⟩ | ⟨m', r', h1, h2, h3⟩ | ⟨r', h1, h2, h3⟩
      | ⟨r', h1, h2, h3⟩
    · have := (read_lt ls _ hr _ h).1
      simp only at this
      omega
    · rw [hj] at h1; cases h1
    · exact h2
    · obtain ⟨q, hq⟩ := (hr.sends _ _).1 h2
      exact absurd (get_lt hq) hnot
    · rw [hi] at h1; cases h1
  subst hji
  rcases hw _ hu with h | ⟨m', r', b, o', rs, h1, h2, h3, h4, h5, h6, h7⟩ | ⟨m', r', h1, h2, h3⟩ | ⟨r', h1, h2, h3⟩
      | ⟨r', h1, h2, h3⟩
  · have := (read_lt ls _ hr _ h).2
    simp only at this
    omega
  · simp only at h1 h2 h3 h6 h7
    rw [hi] at h1
    rw [hj] at h2
    cases h1; cases h2
    exact ⟨h3, b, rs, o', (hr.msgs b rs).1 h4, h5, (hr.conns _).1 h6, h7⟩
  · rw [hi] at h3; cases h3
  · rw [hi] at h1; cases h1
  · obtain ⟨q, hq⟩ := (hr.recvs _ _).1 h2
    exact absurd (get_lt hq) hnot

/-- C55, GUI boxes: in the canvas of a file, whatever leaves a GUI box with a send name is sent to that name, and nothing
else of an object of the file is (apart from what its own `send` objects do). -/
theorem gui_sends (ls : List Line) (b n : Nat) (hb : b < (objects ls).length) :
    SendsTo (file ls) b 0 n ↔ ∃ r, (objects ls)[b]? = some (.gui (some n) r) := by
  obtain ⟨h1, hw, _, hs, _⟩ := file_spec ls
  have hr := read ls
  constructor
  · rintro ⟨j, hj, hc⟩
    have hnot : ¬ j < (objects ls).length := fun hlt => by rw [old_node hlt] at hj; cases hj
    have hn : (ls.foldl step start).g.nodes.length = (objects ls).length := by rw [hr.nodes]; simp
    rcases hw _ hc with h | ⟨m', r', b', o', rs, h1, h2, h3, h4, h5, h6, h7⟩ | ⟨m', r', h1, h2, h3⟩ | ⟨r', h1, h2, h3⟩
      | ⟨r', h1, h2, h3⟩
    · have := (read_lt ls _ hr _ h).2
      simp only at this
      omega
    · rw [hj] at h1; cases h1
    · rw [old_node hb] at h1; cases h1
    · rw [hj] at h1; cases h1
      exact (hr.sends _ _).1 h2
    · rw [old_node hb] at h1; cases h1
  · rintro ⟨r, h⟩
    exact hs b n r h

/-- C55, GUI boxes: in the canvas of a file, whatever is sent to the receive name of a GUI box reaches it, and no other
object of the file is given a receiver. -/
theorem gui_hears (ls : List Line) (b n : Nat) (hb : b < (objects ls).length) :
    HearsFrom (file ls) b n ↔ ∃ r, (objects ls)[b]? = some (.gui r (some n)) := by
  obtain ⟨h1, hw, _, _, hs⟩ := file_spec ls
  have hr := read ls
  constructor
  · rintro ⟨j, hj, hc⟩
    have hnot : ¬ j < (objects ls).length := fun hlt => by rw [old_node hlt] at hj; cases hj
    have hn : (ls.foldl step start).g.nodes.length = (objects ls).length := by rw [hr.nodes]; simp
    rcases hw _ hc with h | ⟨m', r', b', o', rs, h1, h2, h3, h4, h5, h6, h7⟩ | ⟨m', r', h1, h2, h3⟩ | ⟨r', h1, h2, h3⟩
      | ⟨r', h1, h2, h3⟩
    · have := (read_lt ls _ hr _ h).1
      simp only at this
      omega
    · rw [old_node hb] at h1; cases h1
    · rw [old_node hb] at h3; cases h3
    · rw [old_node hb] at h1; cases h1
    · rw [hj] at h1; cases h1
      exact (hr.recvs _ _).1 h2
  · rintro ⟨r, h⟩
    exact hs b n r h

/-- F48: in a subpatch none of this happens: no remote message is sent, no GUI box sends to or hears from its names. -/
theorem subpatch_delivers_nothing (ls : List Line) (u o m r : Nat) :
    ¬ Delivers (subpatch ls) u o m r ∧ ¬ SendsTo (subpatch ls) u o r ∧ ¬ HearsFrom (subpatch ls) u r := by
  have hn : ∀ (i : Nat) (x : Node), (subpatch ls).nodes[i]? = some x → x = Node.other := by
    intro i x h
    have h' := (read ls).nodes
    unfold subpatch at h
    rw [h'] at h
    rw [List.getElem?_replicate] at h
    split at h
    · cases h; rfl
    · cases h
  refine ⟨?_, ?_, ?_⟩
  · rintro ⟨i, j, hi, _⟩
    cases hn _ _ hi
  · rintro ⟨j, hj, _⟩
    cases hn _ _ hj
  · rintro ⟨j, hj, _⟩
    cases hn _ _ hj

/-! ### A case that meets the hypotheses, and the lost message -/

/-- `[select]`, a box `\; 7 70 \; 8 80` below its outlet 1, and a slider that sends to 5 and receives from 6 -/
def demo : List Line := [.obj, .msg [(7, 70), (8, 80)], .gui (some 5) (some 6), .connect ⟨0, 1, 1, 0⟩]

theorem demo_connected : Connected demo ⟨0, 1, 1, 0⟩ :=
  ⟨[.obj, .msg [(7, 70), (8, 80)], .gui (some 5) (some 6)], [], rfl, by decide, by decide⟩

/-- what leaves outlet 0 of the object is delivered, though the file connects outlet 1 only; what leaves outlet 1 is not -/
example : Delivers (file demo) 0 0 80 8 ∧ ¬ Delivers (file demo) 0 1 80 8 :=
  ⟨remote_delivered_partial demo 1 0 1 [(7, 70), (8, 80)] 8 80 rfl (by simp) demo_connected (by decide),
   fun h => absurd (remote_exactly demo 0 1 80 8 h).1 (by decide)⟩

example : SendsTo (file demo) 2 0 5 ∧ HearsFrom (file demo) 2 6 ∧ ¬ SendsTo (file demo) 0 0 5 :=
  ⟨(gui_sends demo 2 5 (by decide)).2 ⟨_, rfl⟩, (gui_hears demo 2 6 (by decide)).2 ⟨_, rfl⟩,
   fun h => by obtain ⟨r, hr⟩ := (gui_sends demo 0 5 (by decide)).1 h; cases hr⟩

end Verif.PdRemote
