import Verif.Proofs.Schedule

/-! # C110: payments under every schedule -/

namespace Stacks.Rpc
open Stacks.Spec Stacks.Tx Stacks.Wallet

section
variable [Secp] [Hashes]

omit [Hashes] in
theorem countOf_append (s : Arr 20) (as bs : List Transaction) : countOf s (as ++ bs) = countOf s as + countOf s bs :=
  List.countP_append

theorem isOf_fulfils {o : Order} {n fee : UInt64} {tx : Transaction} (h : Fulfils o n fee tx) (s : Arr 20) :
    isOf s tx = decide (o.signer = s) := by
  obtain ⟨c, h1, _, h3⟩ := fulfils_auth h
  unfold isOf
  rw [h1]
  simp only [h3]

theorem countOf_one {o : Order} {n fee : UInt64} {tx : Transaction} (h : Fulfils o n fee tx) (s : Arr 20) :
    countOf s [tx] = if o.signer = s then 1 else 0 := by
  unfold countOf
  rw [List.countP_cons, List.countP_nil, isOf_fulfils h]
  by_cases hs : o.signer = s <;> simp [hs]

omit [Hashes] in
theorem countOf_le (s : Arr 20) (ts : List Transaction) : countOf s ts ≤ ts.length := List.countP_le_length

omit [Hashes] in
theorem numbered_append {ts : List Transaction} {t : Transaction} {c : Spending} (h : Numbered ts)
    (hc : t.auth = .standard c) (hn : c.nonce.toNat = countOf (signerOf c) ts) : Numbered (ts ++ [t]) := by
  intro pre u post d he hd
  rcases List.eq_nil_or_concat post with rfl | ⟨post', x, rfl⟩
  · obtain ⟨rfl, h2⟩ := List.append_inj' he rfl
    cases h2
    rw [hc] at hd
    cases hd
    exact hn
  · rw [List.concat_eq_append, ← List.cons_append, ← List.append_assoc] at he
    obtain ⟨rfl, _⟩ := List.append_inj' he rfl
    exact h pre u post' d rfl hd

omit [Hashes] in
/-- **C110** In a numbered list later transactions of an account have larger nonces; so no signed transaction is
accepted twice, however often it is sent. -/
theorem C110_at_most_once (ts : List Transaction) (h : Numbered ts) (pre mid post : List Transaction)
    (a b : Transaction) (c d : Spending) (he : ts = pre ++ a :: mid ++ b :: post) (hc : a.auth = .standard c)
    (hd : b.auth = .standard d) (hs : signerOf c = signerOf d) : c.nonce < d.nonce ∧ a ≠ b := by
  have h1 := h pre a (mid ++ b :: post) c (by rw [he]; simp) hc
  have h2 := h (pre ++ a :: mid) b post d he hd
  have h3 : countOf (signerOf d) (pre ++ a :: mid) = countOf (signerOf c) pre + 1 + countOf (signerOf c) mid := by
    rw [← hs]
    unfold countOf
    rw [List.countP_append, List.countP_cons]
    have : isOf (signerOf c) a = true := by unfold isOf; rw [hc]; simp
    rw [this]
    simp
    omega
  have hlt : c.nonce < d.nonce := UInt64.lt_iff_toNat_lt.2 (by omega)
  refine ⟨hlt, ?_⟩
  rintro rfl
  rw [hc] at hd
  cases hd
  exact absurd hlt (UInt64.lt_irrefl _)

variable [Http] {L ι : Type} [DecidableEq ι]

/-- One request of a program whose knowledge is right. -/
theorem advance_reliable [Secp.Lawful] (parse : Arr 33 → Option Secp.PK) (hp : ∀ k, parse (Secp.serialize k) = some k)
    (r : StacksRPC) (node : StatefulNode L) (accepted : L → List Transaction) (quotes : Str → Nat → List UInt64)
    (hn : Strict parse r.url quotes node accepted) (p : Program) (hc : CanPay quotes p) (base txs : List Transaction)
    (s : Stage) (l : L) (hl : accepted l = base ++ txs) (hr : Reliable parse quotes p txs s)
    (hb : (accepted l).length < 2 ^ 64) :
    ∃ new, accepted (advance r node p s l).2 = base ++ (txs ++ new) ∧ new.length ≤ 1 ∧
      (∀ tx ∈ new, ∃ n fee c, Fulfils p.order n fee tx ∧ tx.auth = .standard c ∧
        c.nonce.toNat = countOf (signerOf c) (accepted l)) ∧
      Reliable parse quotes p (txs ++ new) (advance r node p s l).1 := by
  cases s with
  | start =>
    have hlt : countOf p.order.signer (accepted l) < 2 ^ 64 := lt_of_le_of_lt (countOf_le _ _) hb
    have hno : (UInt64.ofNat (countOf p.order.signer (accepted l))).toNat = countOf p.order.signer (accepted l) := by
      rw [UInt64.toNat_ofNat']; exact Nat.mod_eq_of_lt hlt
    obtain ⟨l', h1, h2⟩ := advance_start parse r node accepted quotes hn p hc l _ hno
    rw [h1]
    exact ⟨[], by rw [List.append_nil, h2, hl], by simp, (fun _ h => absurd h List.not_mem_nil), trivial⟩
  | numbered n =>
    obtain ⟨t, id, tx, l', h1, h2, h3⟩ := advance_numbered parse hp r node accepted quotes hn p hc l n
    rw [h1]
    exact ⟨[], by rw [List.append_nil, h2, hl], by simp, (fun _ h => absurd h List.not_mem_nil), n, id, tx, h3⟩
  | ready t =>
    obtain ⟨n, id, tx, h⟩ := hr
    obtain ⟨h1, h2⟩ := advance_ready parse r node accepted quotes hn p l n t id tx h
    by_cases hl' : n.toNat = countOf p.order.signer (accepted l)
    · obtain ⟨l', h3, h4⟩ := h1 hl'
      rw [h3]
      refine ⟨[tx], by rw [h4, hl, List.append_assoc], by simp, ?_, n, id, tx, h, .inl ⟨rfl, by simp⟩⟩
      intro tx' htx
      rw [List.mem_singleton] at htx
      subst htx
      obtain ⟨bs, hash, hex, q, fee, _, _, _, _, _, h6, _⟩ := h
      obtain ⟨c, c1, c2, c3⟩ := fulfils_auth h6
      exact ⟨n, fee, c, h6, c1, by rw [c2, c3]; exact hl'⟩
    · obtain ⟨e, l', h3, h4⟩ := h2 hl'
      rw [h3]
      exact ⟨[], by rw [List.append_nil, h4, hl], by simp, (fun _ h => absurd h List.not_mem_nil), n, id, tx, h, .inr ⟨e, rfl⟩⟩
  | answered t x => exact ⟨[], by rw [List.append_nil]; exact hl, by simp, (fun _ h => absurd h List.not_mem_nil), by rw [List.append_nil]; exact hr⟩
  | failed => exact hr.elim

omit [DecidableEq ι] in
theorem reliable_mono {parse : Arr 33 → Option Secp.PK} {quotes : Str → Nat → List UInt64} {p : Program}
    {txs : List Transaction} (new : List Transaction) {s : Stage} (h : Reliable parse quotes p txs s) :
    Reliable parse quotes p (txs ++ new) s := by
  cases s with
  | answered t x =>
    obtain ⟨n, id, tx, h1, h2⟩ := h
    refine ⟨n, id, tx, h1, ?_⟩
    rcases h2 with ⟨h2, h3⟩ | h2
    · exact .inl ⟨h2, List.mem_append_left _ h3⟩
    · exact .inr h2
  | _ => exact h

theorem schedule_inv [Secp.Lawful] (parse : Arr 33 → Option Secp.PK) (hp : ∀ k, parse (Secp.serialize k) = some k)
    (r : StacksRPC) (node : StatefulNode L) (accepted : L → List Transaction) (quotes : Str → Nat → List UInt64)
    (hn : Strict parse r.url quotes node accepted) (programs : ι → Program) (hc : ∀ i, CanPay quotes (programs i))
    (base : List Transaction) (es : List (Event ι)) : ∀ (w : World L ι) (txs : List Transaction),
    accepted w.node = base ++ txs → (accepted w.node).length + es.length ≤ 2 ^ 64 →
    (∀ tx ∈ txs, ∃ i n fee, Fulfils (programs i).order n fee tx) →
    (∀ i, Reliable parse quotes (programs i) txs (w.stage i)) →
    (∀ x ∈ w.way, ∃ n id tx, Prepared parse quotes (programs x.1) n x.2 id tx) →
    ∃ txs', accepted (w.run r node programs es).node = base ++ txs' ∧
      (∀ tx ∈ txs', ∃ i n fee, Fulfils (programs i).order n fee tx) ∧
      (Numbered (accepted w.node) → Numbered (accepted (w.run r node programs es).node)) ∧
      ∀ i, Reliable parse quotes (programs i) txs' ((w.run r node programs es).stage i) := by
  induction es with
  | nil => intro w txs h1 _ h3 h4 _; exact ⟨txs, h1, h3, id, h4⟩
  | cons e es ih =>
    intro w txs h1 h2 h3 h4 h5
    rw [List.length_cons] at h2
    have key : ∃ new, accepted (w.next r node programs e).node = base ++ (txs ++ new) ∧ new.length ≤ 1 ∧
        (∀ tx ∈ new, ∃ i n fee c, Fulfils (programs i).order n fee tx ∧ tx.auth = .standard c ∧
          c.nonce.toNat = countOf (signerOf c) (accepted w.node)) ∧
        (∀ i, Reliable parse quotes (programs i) (txs ++ new) ((w.next r node programs e).stage i)) ∧
        ∀ x ∈ (w.next r node programs e).way, ∃ n id tx, Prepared parse quotes (programs x.1) n x.2 id tx := by
      have adv := fun i => advance_reliable parse hp r node accepted quotes hn (programs i) (hc i) base txs
        (w.stage i) w.node h1 (h4 i) (by omega)
      cases e with
      | step i =>
        obtain ⟨new, a1, a2, a3, a4⟩ := adv i
        refine ⟨new, a1, a2, fun tx h => ?_, fun j => ?_, h5⟩
        · obtain ⟨n, fee, c, h⟩ := a3 tx h
          exact ⟨i, n, fee, c, h⟩
        · show Reliable _ _ _ _ (if j = i then _ else _)
          split
          · subst j; exact a4
          · exact reliable_mono new (h4 j)
      | lose i =>
        obtain ⟨new, a1, a2, a3, a4⟩ := adv i
        refine ⟨new, a1, a2, fun tx h => ?_, fun j => reliable_mono new (h4 j), h5⟩
        obtain ⟨n, fee, c, h⟩ := a3 tx h
        exact ⟨i, n, fee, c, h⟩
      | delay i =>
        have same : (w.next r node programs (.delay i)).node = w.node ∧
            (w.next r node programs (.delay i)).stage = w.stage ∧
            ∀ x ∈ (w.next r node programs (.delay i)).way, x ∈ w.way ∨ ∃ t, x = (i, t) ∧ w.stage i = .ready t := by
          simp only [World.next]
          split
          · rename_i t ht
            refine ⟨rfl, rfl, fun x hx => ?_⟩
            rcases List.mem_append.1 hx with hx | hx
            · exact .inl hx
            · exact .inr ⟨t, List.mem_singleton.1 hx, ht⟩
          · exact ⟨rfl, rfl, fun x hx => .inl hx⟩
        obtain ⟨s1, s2, s3⟩ := same
        refine ⟨[], by rw [List.append_nil, s1]; exact h1, by simp, (fun _ h => absurd h List.not_mem_nil), fun j => ?_,
          fun x hx => ?_⟩
        · rw [s2]; exact reliable_mono [] (h4 j)
        · rcases s3 x hx with hx | ⟨t, rfl, ht⟩
          · exact h5 x hx
          · have := h4 i
            rw [ht] at this
            exact this
      | arrive k =>
        cases hk : w.way[k]? with
        | none =>
          have e : w.next r node programs (.arrive k) = w := by simp only [World.next, hk]
          rw [e]
          exact ⟨[], by rw [List.append_nil]; exact h1, by simp, (fun _ h => absurd h List.not_mem_nil),
            fun j => reliable_mono [] (h4 j), h5⟩
        | some x =>
          obtain ⟨i, t⟩ := x
          have e : w.next r node programs (.arrive k) =
              { w with node := (advance r node (programs i) (.ready t) w.node).2 } := by
            simp only [World.next, hk, advance]
          rw [e]
          obtain ⟨new, a1, a2, a3, a4⟩ := advance_reliable parse hp r node accepted quotes hn (programs i) (hc i) base
            txs (.ready t) w.node h1 (h5 (i, t) (List.mem_of_getElem? hk)) (by omega)
          refine ⟨new, a1, a2, fun tx h => ?_, fun j => reliable_mono new (h4 j), h5⟩
          obtain ⟨n, fee, c, h⟩ := a3 tx h
          exact ⟨i, n, fee, c, h⟩
      | restart i =>
        refine ⟨[], by rw [List.append_nil]; exact h1, by simp, (fun _ h => absurd h List.not_mem_nil), fun j => ?_, h5⟩
        show Reliable _ _ _ _ (if j = i then _ else _)
        split
        · trivial
        · exact reliable_mono [] (h4 j)
    obtain ⟨new, b1, b2, b3, b4, b5⟩ := key
    have hlen : (accepted (w.next r node programs e).node).length + es.length ≤ 2 ^ 64 := by
      have e1 := congrArg List.length b1
      have e2 := congrArg List.length h1
      simp only [List.length_append] at e1 e2
      omega
    have hful : ∀ tx ∈ txs ++ new, ∃ i n fee, Fulfils (programs i).order n fee tx := by
      intro tx h
      rcases List.mem_append.1 h with h | h
      · exact h3 tx h
      · obtain ⟨i, n, fee, c, h, _⟩ := b3 tx h
        exact ⟨i, n, fee, h⟩
    obtain ⟨txs', c1, c2, c3, c4⟩ := ih (w.next r node programs e) (txs ++ new) b1 hlen hful b4 b5
    refine ⟨txs', c1, c2, fun h => c3 ?_, c4⟩
    match new, b1, b2, b3 with
    | [], b1, _, _ => rw [b1, List.append_nil, ← h1]; exact h
    | [tx], b1, _, b3 =>
      obtain ⟨i, n, fee, c, _, d1, d2⟩ := b3 tx (List.mem_singleton.2 rfl)
      rw [b1, ← List.append_assoc, ← h1]
      exact numbered_append h d1 d2
    | _ :: _ :: _, _, b2, _ => simp at b2

/-- **C110** Any number of programs pay through one node, in any interleaving of their requests, with answers lost,
broadcasts that arrive late, repeatedly or never, and programs stopped and started again at any point. The node accepts nothing but what they ordered, each account's
transactions with consecutive nonces; no request fails except that a broadcast can be refused; and a program that was
told the identifier of its transaction can rely on it. -/
theorem C110_any_schedule [Secp.Lawful] (parse : Arr 33 → Option Secp.PK)
    (hp : ∀ k, parse (Secp.serialize k) = some k)
    (r : StacksRPC) (node : StatefulNode L) (accepted : L → List Transaction) (quotes : Str → Nat → List UInt64)
    (hn : Strict parse r.url quotes node accepted) (programs : ι → Program) (hc : ∀ i, CanPay quotes (programs i))
    (w : World L ι) (hw : ∀ i, w.stage i = .start) (hy : w.way = []) (es : List (Event ι))
    (hb : (accepted w.node).length + es.length ≤ 2 ^ 64) :
    ∃ txs, accepted (w.run r node programs es).node = accepted w.node ++ txs ∧
      (∀ tx ∈ txs, ∃ i n fee, Fulfils (programs i).order n fee tx) ∧
      (Numbered (accepted w.node) → Numbered (accepted (w.run r node programs es).node)) ∧
      ∀ i, Reliable parse quotes (programs i) txs ((w.run r node programs es).stage i) :=
  schedule_inv parse hp r node accepted quotes hn programs hc (accepted w.node) es w [] (by simp) hb (fun _ h => absurd h List.not_mem_nil)
    (fun i => by rw [hw i]; trivial) (fun x hx => absurd (hy ▸ hx) List.not_mem_nil)

/-- **C110** When a signed transaction is sent, after any schedule, the answer is its identifier and it is accepted if
its nonce is still the number of transactions of the account; otherwise it is refused and nothing changes. -/
theorem C110_answer [Secp.Lawful] (parse : Arr 33 → Option Secp.PK) (hp : ∀ k, parse (Secp.serialize k) = some k)
    (r : StacksRPC) (node : StatefulNode L) (accepted : L → List Transaction) (quotes : Str → Nat → List UInt64)
    (hn : Strict parse r.url quotes node accepted) (programs : ι → Program) (hc : ∀ i, CanPay quotes (programs i))
    (w : World L ι) (hw : ∀ i, w.stage i = .start) (hy : w.way = []) (es : List (Event ι))
    (hb : (accepted w.node).length + es.length ≤ 2 ^ 64) (i : ι) (t : Transaction)
    (ht : (w.run r node programs es).stage i = .ready t) :
    ∃ n id tx, Prepared parse quotes (programs i) n t id tx ∧
      (n.toNat = countOf (programs i).order.signer (accepted (w.run r node programs es).node) →
        (w.run r node programs (es ++ [.step i])).stage i = .answered t (.ok (.ok id)) ∧
        accepted (w.run r node programs (es ++ [.step i])).node =
          accepted (w.run r node programs es).node ++ [tx]) ∧
      (n.toNat ≠ countOf (programs i).order.signer (accepted (w.run r node programs es).node) →
        (∃ e, (w.run r node programs (es ++ [.step i])).stage i = .answered t (.ok (.err e))) ∧
        accepted (w.run r node programs (es ++ [.step i])).node = accepted (w.run r node programs es).node) := by
  obtain ⟨txs, _, _, _, h4⟩ := C110_any_schedule parse hp r node accepted quotes hn programs hc w hw hy es hb
  have h := h4 i
  rw [ht] at h
  obtain ⟨n, id, tx, h⟩ := h
  obtain ⟨h1, h2⟩ := advance_ready parse r node accepted quotes hn (programs i) (w.run r node programs es).node n t id tx h
  have hrun : w.run r node programs (es ++ [.step i]) = (w.run r node programs es).next r node programs (.step i) := by
    unfold World.run
    rw [List.foldl_append]; rfl
  refine ⟨n, id, tx, h, fun hl => ?_, fun hl => ?_⟩
  · obtain ⟨l', a1, a2⟩ := h1 hl
    rw [hrun]
    simp only [World.next, World.put, ht, a1]
    exact ⟨if_pos trivial, a2⟩
  · obtain ⟨e, l', a1, a2⟩ := h2 hl
    rw [hrun]
    simp only [World.next, World.put, ht, a1]
    exact ⟨⟨e, if_pos trivial⟩, a2⟩

omit [DecidableEq ι] in
/-- What is known of a program whose account nobody else uses: its nonce is still the next one. -/
def Current (parse : Arr 33 → Option Secp.PK) (quotes : Str → Nat → List UInt64) (p : Program)
    (ts : List Transaction) : Stage → Prop
  | .start => True
  | .numbered n => n.toNat = countOf p.order.signer ts
  | .ready t => ∃ n id tx, Prepared parse quotes p n t id tx ∧ n.toNat = countOf p.order.signer ts
  | .answered _ x => ∃ id, x = .ok (.ok id)
  | .failed => False

theorem advance_current [Secp.Lawful] (parse : Arr 33 → Option Secp.PK) (hp : ∀ k, parse (Secp.serialize k) = some k)
    (r : StacksRPC) (node : StatefulNode L) (accepted : L → List Transaction) (quotes : Str → Nat → List UInt64)
    (hn : Strict parse r.url quotes node accepted) (p : Program) (hc : CanPay quotes p)
    (s : Stage) (l : L) (hr : Current parse quotes p (accepted l) s) (hb : (accepted l).length < 2 ^ 64) :
    Current parse quotes p (accepted (advance r node p s l).2) (advance r node p s l).1 := by
  cases s with
  | start =>
    have hlt : countOf p.order.signer (accepted l) < 2 ^ 64 := lt_of_le_of_lt (countOf_le _ _) hb
    have hno : (UInt64.ofNat (countOf p.order.signer (accepted l))).toNat = countOf p.order.signer (accepted l) := by
      rw [UInt64.toNat_ofNat']; exact Nat.mod_eq_of_lt hlt
    obtain ⟨l', h1, h2⟩ := advance_start parse r node accepted quotes hn p hc l _ hno
    rw [h1]
    show _ = countOf _ (accepted l')
    rw [h2]; exact hno
  | numbered n =>
    obtain ⟨t, id, tx, l', h1, h2, h3⟩ := advance_numbered parse hp r node accepted quotes hn p hc l n
    rw [h1]
    refine ⟨n, id, tx, h3, ?_⟩
    show _ = countOf _ (accepted l')
    rw [h2]; exact hr
  | ready t =>
    obtain ⟨n, id, tx, h, hl⟩ := hr
    obtain ⟨l', h3, _⟩ := (advance_ready parse r node accepted quotes hn p l n t id tx h).1 hl
    rw [h3]
    exact ⟨id, rfl⟩
  | answered t x => exact hr
  | failed => exact hr

/-- **C110** A program whose account nobody else uses, and whose requests and answers are not lost, is never
refused, whatever the
others do and however often it is started again. -/
theorem C110_own_account [Secp.Lawful] (parse : Arr 33 → Option Secp.PK)
    (hp : ∀ k, parse (Secp.serialize k) = some k)
    (r : StacksRPC) (node : StatefulNode L) (accepted : L → List Transaction) (quotes : Str → Nat → List UInt64)
    (hn : Strict parse r.url quotes node accepted) (programs : ι → Program) (hc : ∀ i, CanPay quotes (programs i))
    (w : World L ι) (hw : ∀ i, w.stage i = .start) (hy : w.way = []) (es : List (Event ι))
    (hb : (accepted w.node).length + es.length ≤ 2 ^ 64) (i : ι)
    (ho : ∀ j, j ≠ i → (programs j).order.signer ≠ (programs i).order.signer) (hl : .lose i ∉ es) (hd : .delay i ∉ es)
    (t : Transaction) (x : Outcome Rpc.Error BroadcastResponse)
    (ht : (w.run r node programs es).stage i = .answered t x) :
    ∃ n id tx, Prepared parse quotes (programs i) n t id tx ∧ x = .ok (.ok id) ∧
      tx ∈ accepted (w.run r node programs es).node := by
  have key : ∀ (es : List (Event ι)) (w : World L ι) (base txs : List Transaction), accepted w.node = base ++ txs →
      (∀ i, Reliable parse quotes (programs i) txs (w.stage i)) →
      (∀ x ∈ w.way, x.1 ≠ i ∧ ∃ n id tx, Prepared parse quotes (programs x.1) n x.2 id tx) →
      (accepted w.node).length + es.length ≤ 2 ^ 64 → .lose i ∉ es → .delay i ∉ es →
      Current parse quotes (programs i) (accepted w.node) (w.stage i) →
      Current parse quotes (programs i) (accepted (w.run r node programs es).node)
        ((w.run r node programs es).stage i) := by
    intro es
    induction es with
    | nil => intro w _ _ _ _ _ _ _ _ h; exact h
    | cons e es ih =>
      intro w base txs h1 h2 h6 h3 h4 h7 h5
      rw [List.length_cons] at h3
      have adv := fun i => advance_reliable parse hp r node accepted quotes hn (programs i) (hc i) base txs
        (w.stage i) w.node h1 (h2 i) (by omega)
      have hlen : ∀ {l new}, accepted l = base ++ (txs ++ new) → new.length ≤ 1 →
          (accepted l).length + es.length ≤ 2 ^ 64 := by
        intro l new e1 e2
        have e3 := congrArg List.length h1
        rw [e1]
        simp only [List.length_append] at e3 ⊢
        omega
      have hl4 : .lose i ∉ es := fun h => h4 (List.mem_cons_of_mem _ h)
      have hl7 : .delay i ∉ es := fun h => h7 (List.mem_cons_of_mem _ h)
      have hcount : ∀ j s, j ≠ i → Reliable parse quotes (programs j) txs s → countOf (programs i).order.signer
          (accepted (advance r node (programs j) s w.node).2) =
          countOf (programs i).order.signer (accepted w.node) := by
        intro j s hj hs
        obtain ⟨new, a1, a2, a3, a4⟩ := advance_reliable parse hp r node accepted quotes hn (programs j) (hc j) base txs
          s w.node h1 hs (by omega)
        rw [a1, ← List.append_assoc, ← h1, countOf_append]
        match new, a2, a3 with
        | [], _, _ => rfl
        | [tx], _, a3 =>
          obtain ⟨n, fee, c, a3, _⟩ := a3 tx (List.mem_singleton.2 rfl)
          rw [countOf_one a3, if_neg (ho j hj), Nat.add_zero]
        | _ :: _ :: _, a2, _ => simp at a2
      have hkeep : ∀ j s, j ≠ i → Reliable parse quotes (programs j) txs s → Current parse quotes (programs i)
          (accepted (advance r node (programs j) s w.node).2) (w.stage i) := by
        intro j s hj hs
        revert h5
        cases w.stage i with
        | numbered n => intro h5; show _ = countOf _ _; rw [hcount j s hj hs]; exact h5
        | ready t =>
          rintro ⟨n, id, tx, b1, b2⟩
          exact ⟨n, id, tx, b1, by rw [hcount j s hj hs]; exact b2⟩
        | _ => exact fun h => h
      cases e with
      | step j =>
        obtain ⟨new, a1, a2, a3, a4⟩ := adv j
        refine ih (w.next r node programs (.step j)) base (txs ++ new) a1 (fun k => ?_) h6 (hlen a1 a2) hl4 hl7 ?_
        · show Reliable _ _ _ _ (if k = j then _ else _)
          split
          · subst k; exact a4
          · exact reliable_mono new (h2 k)
        · show Current _ _ _ _ (if i = j then _ else _)
          split
          · subst j
            exact advance_current parse hp r node accepted quotes hn (programs i) (hc i) _ w.node h5 (by omega)
          · exact hkeep j _ (fun h => by subst h; contradiction) (h2 j)
      | lose j =>
        obtain ⟨new, a1, a2, a3, a4⟩ := adv j
        have hj : j ≠ i := by rintro rfl; exact h4 List.mem_cons_self
        exact ih (w.next r node programs (.lose j)) base (txs ++ new) a1 (fun k => reliable_mono new (h2 k))
          h6 (hlen a1 a2) hl4 hl7 (hkeep j _ hj (h2 j))
      | delay j =>
        have hj : j ≠ i := by rintro rfl; exact h7 List.mem_cons_self
        have same : (w.next r node programs (.delay j)).node = w.node ∧
            (w.next r node programs (.delay j)).stage = w.stage ∧
            ∀ x ∈ (w.next r node programs (.delay j)).way, x ∈ w.way ∨ ∃ t, x = (j, t) ∧ w.stage j = .ready t := by
          simp only [World.next]
          split
          · rename_i t ht
            refine ⟨rfl, rfl, fun x hx => ?_⟩
            rcases List.mem_append.1 hx with hx | hx
            · exact .inl hx
            · exact .inr ⟨t, List.mem_singleton.1 hx, ht⟩
          · exact ⟨rfl, rfl, fun x hx => .inl hx⟩
        obtain ⟨s1, s2, s3⟩ := same
        refine ih (w.next r node programs (.delay j)) base txs (by rw [s1]; exact h1) (fun k => by rw [s2]; exact h2 k)
          (fun x hx => ?_) (by rw [s1]; omega) hl4 hl7 (by rw [s1, s2]; exact h5)
        rcases s3 x hx with hx | ⟨t, rfl, ht⟩
        · exact h6 x hx
        · have := h2 j
          rw [ht] at this
          exact ⟨hj, this⟩
      | arrive k =>
        cases hk : w.way[k]? with
        | none =>
          have e : w.next r node programs (.arrive k) = w := by simp only [World.next, hk]
          show Current _ _ _ (accepted ((w.next r node programs (.arrive k)).run r node programs es).node)
            (((w.next r node programs (.arrive k)).run r node programs es).stage i)
          rw [e]
          exact ih w base txs h1 h2 h6 (by omega) hl4 hl7 h5
        | some x =>
          obtain ⟨j, t⟩ := x
          have e : w.next r node programs (.arrive k) =
              { w with node := (advance r node (programs j) (.ready t) w.node).2 } := by
            simp only [World.next, hk, advance]
          show Current _ _ _ (accepted ((w.next r node programs (.arrive k)).run r node programs es).node)
            (((w.next r node programs (.arrive k)).run r node programs es).stage i)
          rw [e]
          obtain ⟨hj, hr⟩ := h6 (j, t) (List.mem_of_getElem? hk)
          obtain ⟨new, a1, a2, a3, a4⟩ := advance_reliable parse hp r node accepted quotes hn (programs j) (hc j) base
            txs (.ready t) w.node h1 hr (by omega)
          exact ih _ base (txs ++ new) a1 (fun k => reliable_mono new (h2 k)) h6 (hlen a1 a2) hl4 hl7
            (hkeep j (.ready t) hj hr)
      | restart j =>
        refine ih (w.next r node programs (.restart j)) base txs h1 (fun k => ?_) h6
          (by show (accepted w.node).length + _ ≤ _; omega) hl4 hl7 ?_
        · show Reliable _ _ _ _ (if k = j then _ else _)
          split
          · trivial
          · exact h2 k
        · show Current _ _ _ _ (if i = j then _ else _)
          split
          · trivial
          · exact h5
  have h1 := key es w (accepted w.node) [] (by simp) (fun i => by rw [hw i]; trivial)
    (fun x hx => absurd (hy ▸ hx) List.not_mem_nil) hb hl hd (by rw [hw i]; trivial)
  obtain ⟨txs, g1, _, _, g4⟩ := C110_any_schedule parse hp r node accepted quotes hn programs hc w hw hy es hb
  have h2 := g4 i
  rw [ht] at h1 h2
  obtain ⟨id, rfl⟩ := h1
  obtain ⟨n, id', tx, h3, h4⟩ := h2
  rcases h4 with ⟨h4, h5⟩ | ⟨e, h4⟩
  · exact ⟨n, id', tx, h3, h4, by rw [g1]; exact List.mem_append_right _ h5⟩
  · cases h4

/-- **C110** When the answer to a broadcast is lost, a program that starts again pays twice: the node has both
transactions, each as ordered. One that sends the same transaction again does not, but is told that its transaction,
which the node has accepted, is refused. -/
theorem C110_lost_answer [Secp.Lawful] (parse : Arr 33 → Option Secp.PK)
    (hp : ∀ k, parse (Secp.serialize k) = some k)
    (r : StacksRPC) (node : StatefulNode L) (accepted : L → List Transaction) (quotes : Str → Nat → List UInt64)
    (hn : Strict parse r.url quotes node accepted) (programs : ι → Program) (hc : ∀ i, CanPay quotes (programs i))
    (w : World L ι) (i : ι) (hw : w.stage i = .start) (n : UInt64)
    (hl : n.toNat = countOf (programs i).order.signer (accepted w.node)) :
    (∃ t id tx e, Prepared parse quotes (programs i) n t id tx ∧
      (w.run r node programs [.step i, .step i, .lose i, .step i]).stage i = .answered t (.ok (.err e)) ∧
      accepted (w.run r node programs [.step i, .step i, .lose i, .step i]).node = accepted w.node ++ [tx]) ∧
    (n.toNat + 1 < 2 ^ 64 → ∃ fee fee' tx tx',
      Fulfils (programs i).order n fee tx ∧ Fulfils (programs i).order (n + 1) fee' tx' ∧
      accepted (w.run r node programs [.step i, .step i, .lose i, .restart i, .step i, .step i, .step i]).node =
        accepted w.node ++ [tx, tx']) := by
  obtain ⟨l1, a1, a2⟩ := advance_start parse r node accepted quotes hn (programs i) (hc i) w.node n hl
  obtain ⟨t, id, tx, l2, b1, b2, b3⟩ := advance_numbered parse hp r node accepted quotes hn (programs i) (hc i) l1 n
  obtain ⟨l3, c1, c2⟩ := (advance_ready parse r node accepted quotes hn (programs i) l2 n t id tx b3).1
    (by rw [b2, a2]; exact hl)
  obtain ⟨bs, hash, hex, q, fee, _, _, _, _, _, hf, _⟩ := _root_.id b3
  have hcnt : countOf (programs i).order.signer (accepted l3) = n.toNat + 1 := by
    rw [c2, b2, a2, countOf_append, countOf_one hf, if_pos rfl, ← hl]
  have hacc : accepted l3 = accepted w.node ++ [tx] := by rw [c2, b2, a2]
  constructor
  · obtain ⟨e, l4, d1, d2⟩ := (advance_ready parse r node accepted quotes hn (programs i) l3 n t id tx b3).2
      (by rw [hcnt]; omega)
    refine ⟨t, id, tx, e, b3, ?_, ?_⟩
    · simp only [World.run, List.foldl, World.next, World.put, hw, a1, b1, c1, d1, if_true]
    · simp only [World.run, List.foldl, World.next, World.put, hw, a1, b1, c1, d1, if_true]
      rw [d2, hacc]
  · intro hlt
    have hn1 : (n + 1).toNat = n.toNat + 1 := by
      rw [UInt64.toNat_add]; exact Nat.mod_eq_of_lt hlt
    obtain ⟨l4, d1, d2⟩ := advance_start parse r node accepted quotes hn (programs i) (hc i) l3 (n + 1)
      (by rw [hcnt]; exact hn1)
    obtain ⟨t', id', tx', l5, e1, e2, e3⟩ :=
      advance_numbered parse hp r node accepted quotes hn (programs i) (hc i) l4 (n + 1)
    obtain ⟨l6, f1, f2⟩ := (advance_ready parse r node accepted quotes hn (programs i) l5 (n + 1) t' id' tx' e3).1
      (by rw [e2, d2, hcnt]; exact hn1)
    obtain ⟨bs, hash, hex, q, fee', _, _, _, _, _, hf', _⟩ := _root_.id e3
    refine ⟨fee, fee', tx, tx', hf, hf', ?_⟩
    simp only [World.run, List.foldl, World.next, World.put, hw, a1, b1, c1, d1, e1, f1, if_true]
    rw [f2, e2, d2, hacc]
    simp

/-- **C110** Two programs of one account that both ask for the nonce before either has paid: the first to send is paid
for, the other is refused, and comes through when it starts again. -/
theorem C110_race [Secp.Lawful] (parse : Arr 33 → Option Secp.PK)
    (hp : ∀ k, parse (Secp.serialize k) = some k)
    (r : StacksRPC) (node : StatefulNode L) (accepted : L → List Transaction) (quotes : Str → Nat → List UInt64)
    (hn : Strict parse r.url quotes node accepted) (programs : ι → Program) (hc : ∀ i, CanPay quotes (programs i))
    (w : World L ι) (i j : ι) (hij : i ≠ j) (hwi : w.stage i = .start) (hwj : w.stage j = .start)
    (hs : (programs i).order.signer = (programs j).order.signer) (n : UInt64)
    (hl : n.toNat = countOf (programs i).order.signer (accepted w.node)) (hlt : n.toNat + 1 < 2 ^ 64) :
    ∃ ti idi txi tj e tj' idj txj, Prepared parse quotes (programs i) n ti idi txi ∧
      Prepared parse quotes (programs j) (n + 1) tj' idj txj ∧
      (w.run r node programs [.step i, .step j, .step i, .step j, .step i, .step j]).stage i =
        .answered ti (.ok (.ok idi)) ∧
      (w.run r node programs [.step i, .step j, .step i, .step j, .step i, .step j]).stage j =
        .answered tj (.ok (.err e)) ∧
      accepted (w.run r node programs [.step i, .step j, .step i, .step j, .step i, .step j]).node =
        accepted w.node ++ [txi] ∧
      (w.run r node programs [.step i, .step j, .step i, .step j, .step i, .step j, .restart j, .step j, .step j,
        .step j]).stage j = .answered tj' (.ok (.ok idj)) ∧
      accepted (w.run r node programs [.step i, .step j, .step i, .step j, .step i, .step j, .restart j, .step j,
        .step j, .step j]).node = accepted w.node ++ [txi, txj] := by
  obtain ⟨l1, a1, a2⟩ := advance_start parse r node accepted quotes hn (programs i) (hc i) w.node n hl
  obtain ⟨l2, b1, b2⟩ := advance_start parse r node accepted quotes hn (programs j) (hc j) l1 n
    (by rw [a2, ← hs]; exact hl)
  obtain ⟨ti, idi, txi, l3, c1, c2, c3⟩ :=
    advance_numbered parse hp r node accepted quotes hn (programs i) (hc i) l2 n
  obtain ⟨tj, idj, txj, l4, d1, d2, d3⟩ :=
    advance_numbered parse hp r node accepted quotes hn (programs j) (hc j) l3 n
  obtain ⟨l5, e1, e2⟩ := (advance_ready parse r node accepted quotes hn (programs i) l4 n ti idi txi c3).1
    (by rw [d2, c2, b2, a2]; exact hl)
  obtain ⟨bs, hash, hex, q, fee, _, _, _, _, _, hf, _⟩ := _root_.id c3
  have hacc : accepted l5 = accepted w.node ++ [txi] := by rw [e2, d2, c2, b2, a2]
  have hcnt : countOf (programs j).order.signer (accepted l5) = n.toNat + 1 := by
    rw [hacc, countOf_append, countOf_one hf, ← hs, if_pos rfl, ← hl]
  obtain ⟨e, l6, f1, f2⟩ := (advance_ready parse r node accepted quotes hn (programs j) l5 n tj idj txj d3).2
    (by rw [hcnt]; omega)
  have hn1 : (n + 1).toNat = n.toNat + 1 := by
    rw [UInt64.toNat_add]; exact Nat.mod_eq_of_lt hlt
  obtain ⟨l7, g1, g2⟩ := advance_start parse r node accepted quotes hn (programs j) (hc j) l6 (n + 1)
    (by rw [f2, hcnt]; exact hn1)
  obtain ⟨tj', idj', txj', l8, h1, h2, h3⟩ :=
    advance_numbered parse hp r node accepted quotes hn (programs j) (hc j) l7 (n + 1)
  obtain ⟨l9, i1, i2⟩ := (advance_ready parse r node accepted quotes hn (programs j) l8 (n + 1) tj' idj' txj' h3).1
    (by rw [h2, g2, f2, hcnt]; exact hn1)
  have hji : j ≠ i := hij.symm
  refine ⟨ti, idi, txi, tj, e, tj', idj', txj', c3, h3, ?_, ?_, ?_, ?_, ?_⟩
  · simp only [World.run, List.foldl, World.next, World.put, hwi, hwj, a1, b1, c1, d1, e1, f1, if_true, hij, hji, if_false]
  · simp only [World.run, List.foldl, World.next, World.put, hwi, hwj, a1, b1, c1, d1, e1, f1, if_true, hij, hji, if_false]
  · simp only [World.run, List.foldl, World.next, World.put, hwi, hwj, a1, b1, c1, d1, e1, f1, if_true, hij, hji, if_false]
    rw [f2, hacc]
  · simp only [World.run, List.foldl, World.next, World.put, hwi, hwj, a1, b1, c1, d1, e1, f1, g1, h1, i1, if_true, hij, hji, if_false]
  · simp only [World.run, List.foldl, World.next, World.put, hwi, hwj, a1, b1, c1, d1, e1, f1, g1, h1, i1, if_true, hij, hji, if_false]
    rw [i2, h2, g2, f2, hacc]
    simp

end

/-! ## The hypotheses are satisfiable -/

section
attribute [local instance] Concrete.realHashes Concrete.toySecp toyHttp
local instance scheduleLawful : Secp.Lawful := Concrete.toyLawful

/-- A node that serves all accounts, asks one unit for a byte, or two or three, and refuses wrong nonces. -/
def nonceNode (parse : Arr 33 → Option Secp.PK) : StatefulNode (List Transaction) := fun l q =>
  match q.body with
  | .empty =>
    match C32.addressFromStr (q.url.drop 21) with
    | .ok a => (.response 200 ("x".toList, .obj [("balance".toList, .str "0x10".toList), ("locked".toList, .str "0x0".toList),
      ("unlock_height".toList, .num 0), ("nonce".toList, .num (countOf a.hash l)), ("balance_proof".toList, .str []),
      ("nonce_proof".toList, .str [])]), l)
    | _ => (.transport (), l)
  | .json (.obj [_, (_, .num n)]) => (.response 200 ("x".toList, .obj [("estimations".toList, .arr ([1, 2, 3].map fun i =>
      .obj [("fee".toList, .num (UInt64.ofNat (i * n)).toNat), ("fee_rate".toList, .num i)]))]), l)
  | .json _ => (.transport (), l)
  | .bytes bs =>
    match (readTransaction parse).run bs with
    | some (t, []) =>
      match t.auth with
      | .standard c =>
        if c.nonce.toNat = countOf (signerOf c) l then
          (.response 200 (hexText (Hashes.sha512_256 bs).1, .null), l ++ [t])
        else
          (.response 400 ("x".toList, .obj [("error".toList, .str "transaction rejected".toList),
            ("reason".toList, .str "ConflictingNonceInMempool".toList), ("txid".toList, .str [])]), l)
      | .sponsored _ _ => (.transport (), l)
    | _ => (.transport (), l)

theorem nonceNode_bytes (parse : Arr 33 → Option Secp.PK) (l : List Transaction) (bs : Bytes) (t : Transaction)
    (c : Spending) (h2 : (readTransaction parse).run bs = some (t, [])) (h3 : t.auth = .standard c) :
    nonceNode parse l (broadcastRequest "http://n".toList bs) =
      if c.nonce.toNat = countOf (signerOf c) l then
        (.response 200 (hexText (Hashes.sha512_256 bs).1, .null), l ++ [t])
      else
        (.response 400 ("x".toList, .obj [("error".toList, .str "transaction rejected".toList),
          ("reason".toList, .str "ConflictingNonceInMempool".toList), ("txid".toList, .str [])]), l) := by
  unfold nonceNode
  simp only [broadcastRequest, h2, h3]

theorem nonceNode_strict (parse : Arr 33 → Option Secp.PK) :
    Strict parse "http://n".toList (fun _ n => [1, 2, 3].map fun i => UInt64.ofNat (i * n)) (nonceNode parse) id where
  account l s signer v n hs hn := by
    have e : (nonceNode parse l (accountRequest "http://n".toList s)) = (.response 200 ("x".toList,
        .obj [("balance".toList, .str "0x10".toList), ("locked".toList, .str "0x0".toList),
        ("unlock_height".toList, .num 0), ("nonce".toList, .num (countOf signer l)), ("balance_proof".toList, .str []),
        ("nonce_proof".toList, .str [])]), l) := by
      show (match C32.addressFromStr s with
        | .ok a => ((.response 200 ("x".toList, .obj [("balance".toList, .str "0x10".toList), ("locked".toList, .str "0x0".toList),
          ("unlock_height".toList, .num 0), ("nonce".toList, .num (countOf a.hash l)), ("balance_proof".toList, .str []),
          ("nonce_proof".toList, .str [])]) : Reply), l)
        | _ => (.transport (), l)) = _
      rw [C32.fromStr_iff.2 hs]
    rw [e]
    refine ⟨200, _, _, ⟨"0x10".toList, "0x0".toList, 0, n, [], []⟩, rfl, by decide, rfl, .inl ⟨_, rfl, ?_⟩, rfl⟩
    intro f hf
    simp only [List.mem_cons, List.not_mem_nil, or_false] at hf
    have hn : n.toNat = countOf signer l := hn
    rcases hf with rfl | rfl | rfl | rfl | rfl | rfl <;> simp only [hn] <;> rfl
  fees l hex n := (oneAccountNode_honest parse ⟨List.replicate 20 0, rfl⟩).fees l hex n
  account_state l s := by
    show (nonceNode parse l (accountRequest "http://n".toList s)).2 = l
    unfold nonceNode
    simp only [accountRequest]
    split <;> rfl
  fees_state l hex n := rfl
  accept l bs t c _ h2 h3 h4 := by
    rw [id] at h4
    rw [nonceNode_bytes parse l bs t c h2 h3, if_pos h4]
    refine ⟨⟨200, _, rfl, by decide, ?_⟩, rfl⟩
    refine if_neg fun h => ?_
    have h' := (Hex.C01_hex_roundtrip (Hashes.sha512_256 bs).1).1
    rw [Hex.bytesToHex_eq, show hexText (Hashes.sha512_256 bs).1 = [] from h] at h'
    have : ([] : Bytes) = (Hashes.sha512_256 bs).1 := Outcome.ok.inj h'
    have := congrArg List.length this
    rw [(Hashes.sha512_256 bs).2] at this
    cases this
  refuse l bs t c _ h2 h3 h4 := by
    rw [id] at h4
    rw [nonceNode_bytes parse l bs t c h2 h3, if_neg h4]
    refine ⟨⟨400, _, _, ⟨"transaction rejected".toList, "ConflictingNonceInMempool".toList, []⟩, rfl, by decide, rfl,
      .inl ⟨_, rfl, fun f hf => ?_⟩⟩, rfl⟩
    simp only [List.mem_cons, List.not_mem_nil, or_false] at hf
    rcases hf with rfl | rfl | rfl <;> rfl

/-- Three programs: a transfer and a call from one account, a transfer from another. -/
def exPrograms (a b : Str) : Fin 3 → Program
  | 0 => ⟨a, 2, .transfer exTransferBuilder⟩
  | 1 => ⟨a, 0, .call (exCallBuilder "SP2J6ZY48GV1EZ5V2V5RB9MP66SW86PYKKNRV9EJ7")⟩
  | 2 => ⟨b, 1, .transfer { exTransferBuilder with sender := exKey 2 }⟩

theorem exPrograms_canPay : ∃ a b, ∀ i,
    CanPay (fun _ n => [1, 2, 3].map fun i => UInt64.ofNat (i * n)) (exPrograms a b i) := by
  obtain ⟨a, ha⟩ := (C32.C10_c32_address_versions (hash160Of (Secp.serialize (Secp.pub (exKey 1))).1).1 26).1 (by decide)
  obtain ⟨b, hb⟩ := (C32.C10_c32_address_versions (hash160Of (Secp.serialize (Secp.pub (exKey 2))).1).1 26).1 (by decide)
  refine ⟨a, b, fun i => ?_⟩
  match i with
  | 0 => exact ⟨exTransferOrder_acceptable, ⟨26, C32.fromStr_iff.1 <| C32.C12_address_from_str_roundtrip _ _ _ ha⟩, fun _ _ => by simp [exPrograms]⟩
  | 1 => exact ⟨exCallOrder_acceptable, ⟨26, C32.fromStr_iff.1 <| C32.C12_address_from_str_roundtrip _ _ _ ha⟩, fun _ _ => by simp [exPrograms]⟩
  | 2 => exact ⟨exTransferOrder_acceptable, ⟨26, C32.fromStr_iff.1 <| C32.C12_address_from_str_roundtrip _ _ _ hb⟩, fun _ _ => by simp [exPrograms]⟩

/-- C110: a schedule in which the first two race, the second starts again, and the third pays undisturbed. -/
example : ∃ (parse : Arr 33 → Option Secp.PK) (a b : Str) (txs : List Transaction),
    (({ stage := fun _ => Stage.start, node := [] : World (List Transaction) (Fin 3) }).run ⟨"http://n".toList⟩ (nonceNode parse)
      (exPrograms a b) [.step 0, .step 2, .step 1, .step 1, .lose 0, .step 0, .step 2, .delay 1, .step 0, .step 1, .restart 1, .arrive 0,
        .step 2, .step 1, .step 1, .step 1]).node = txs ∧ Numbered txs ∧
      ∀ tx ∈ txs, ∃ i n fee, Fulfils (exPrograms a b i).order n fee tx := by
  obtain ⟨parse, hp⟩ := (parser_exists : ∃ parse : Arr 33 → Option Secp.PK, _)
  obtain ⟨a, b, hc⟩ := exPrograms_canPay
  obtain ⟨txs, h1, h2, h3, _⟩ := C110_any_schedule parse hp ⟨"http://n".toList⟩ (nonceNode parse) id _
    (nonceNode_strict parse) (exPrograms a b) hc { stage := fun _ => Stage.start, node := [] } (fun _ => rfl) rfl
    [.step 0, .step 2, .step 1, .step 1, .lose 0, .step 0, .step 2, .delay 1, .step 0, .step 1, .restart 1, .arrive 0,
        .step 2, .step 1, .step 1, .step 1] (by simp)
  have h1 : _ = txs := h1
  refine ⟨parse, a, b, txs, h1, ?_, h2⟩
  rw [← h1]
  refine h3 ?_
  rintro pre t post c h
  exact absurd (congrArg List.length h) (by simp)

/-- C110: the third shares its account with no other. -/
example (a b : Str) : ∀ j, j ≠ 2 → (exPrograms a b j).order.signer ≠ (exPrograms a b 2).order.signer := by
  intro j hj
  match j with
  | 0 => show hash160Of (Secp.serialize (Secp.pub (exKey 1))).1 ≠ hash160Of (Secp.serialize (Secp.pub (exKey 2))).1; decide +kernel
  | 1 => show hash160Of (Secp.serialize (Secp.pub (exKey 1))).1 ≠ hash160Of (Secp.serialize (Secp.pub (exKey 2))).1; decide +kernel
  | 2 => exact absurd rfl hj

/-- C110: two payments where one was meant. -/
example : ∃ (parse : Arr 33 → Option Secp.PK) (a b : Str) (tx tx' : Transaction) (fee fee' : UInt64),
    (({ stage := fun _ => Stage.start, node := [] : World (List Transaction) (Fin 3) }).run ⟨"http://n".toList⟩ (nonceNode parse)
      (exPrograms a b) [.step 0, .step 0, .lose 0, .restart 0, .step 0, .step 0, .step 0]).node = [tx, tx'] ∧
      Fulfils (.transfer exTransferBuilder) 0 fee tx ∧ Fulfils (.transfer exTransferBuilder) 1 fee' tx' := by
  obtain ⟨parse, hp⟩ := (parser_exists : ∃ parse : Arr 33 → Option Secp.PK, _)
  obtain ⟨a, b, hc⟩ := exPrograms_canPay
  obtain ⟨fee, fee', tx, tx', h1, h2, h3⟩ := (C110_lost_answer parse hp ⟨"http://n".toList⟩ (nonceNode parse) id _
    (nonceNode_strict parse) (exPrograms a b) hc { stage := fun _ => Stage.start, node := [] } 0 rfl 0 rfl).2 (by decide)
  exact ⟨parse, a, b, tx, tx', fee, fee', h3, h1, h2⟩

/-- C110: a race of two programs of one account. -/
example : ∃ (parse : Arr 33 → Option Secp.PK) (a b : Str) (t : Transaction) (e : BroadcastErr),
    (({ stage := fun _ => Stage.start, node := [] : World (List Transaction) (Fin 3) }).run ⟨"http://n".toList⟩ (nonceNode parse)
      (exPrograms a b) [.step 0, .step 1, .step 0, .step 1, .step 0, .step 1]).stage 1 = .answered t (.ok (.err e)) := by
  obtain ⟨parse, hp⟩ := (parser_exists : ∃ parse : Arr 33 → Option Secp.PK, _)
  obtain ⟨a, b, hc⟩ := exPrograms_canPay
  obtain ⟨_, _, _, t, e, _, _, _, _, _, _, h, _⟩ := C110_race parse hp ⟨"http://n".toList⟩ (nonceNode parse) id _
    (nonceNode_strict parse) (exPrograms a b) hc { stage := fun _ => Stage.start, node := [] } 0 1 (by decide) rfl rfl rfl 0 rfl
    (by decide)
  exact ⟨parse, a, b, t, e, h⟩

end

end Stacks.Rpc
