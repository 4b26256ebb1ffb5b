import Verif.Proofs.Mixed

/-! # C127: payments of all kinds under every schedule -/

namespace Stacks.Rpc
open Stacks.Spec Stacks.Tx Stacks.Wallet

section
variable [Secp] [Hashes]

omit [Hashes] in
theorem allNumbered_append {ts : List Transaction} {t : Transaction} (h : AllNumbered ts)
    (hn : ∀ x ∈ takingPart t.auth, x.2.toNat = parts x.1 ts) : AllNumbered (ts ++ [t]) := by
  intro pre u post he
  rcases List.eq_nil_or_concat post with rfl | ⟨post', x, rfl⟩
  · obtain ⟨rfl, h2⟩ := List.append_inj' he rfl
    cases h2
    exact hn
  · rw [List.concat_eq_append, ← List.cons_append, ← List.append_assoc] at he
    obtain ⟨rfl, _⟩ := List.append_inj' he rfl
    exact h pre u post' rfl

omit [Hashes] in
/-- **C127** In a numbered list an account that takes part in two transactions, in whatever role, has the larger nonce in
the later one; so no signed transaction is accepted twice, however often it is sent. -/
theorem C127_at_most_once (ts : List Transaction) (h : AllNumbered ts) (pre mid post : List Transaction)
    (a b : Transaction) (he : ts = pre ++ a :: mid ++ b :: post) :
    (∀ s n n', (s, n) ∈ takingPart a.auth → (s, n') ∈ takingPart b.auth → n < n') ∧ a ≠ b := by
  have key : ∀ s n n', (s, n) ∈ takingPart a.auth → (s, n') ∈ takingPart b.auth → n < n' := by
    intro s n n' ha hb
    have h1 : n.toNat = parts s pre := h pre a (mid ++ b :: post) (by rw [he]; simp) _ ha
    have h2 : n'.toNat = parts s (pre ++ a :: mid) := h (pre ++ a :: mid) b post he _ hb
    have h3 : parts s (a :: mid) = parts s [a] + parts s mid := parts_append s [a] mid
    rw [parts_append, h3, parts_one, if_pos (List.mem_map.2 ⟨_, ha, rfl⟩)] at h2
    exact UInt64.lt_iff_toNat_lt.2 (by omega)
  refine ⟨key, ?_⟩
  rintro rfl
  obtain ⟨⟨s, n⟩, hx⟩ : ∃ x, x ∈ takingPart a.auth := by
    cases a.auth <;> exact ⟨_, List.mem_cons_self⟩
  exact absurd (key s n n hx hx) (UInt64.lt_irrefl _)

variable [Http] {L ι : Type} [DecidableEq ι]

/-- One request of a program whose knowledge is right. -/
theorem proceed_reliable [Secp.Lawful] (parse : Arr 33 → Option Secp.PK) (hp : ∀ k, parse (Secp.serialize k) = some k)
    (r : StacksRPC) (node : StatefulNode L) (accepted : L → List Transaction) (quotes : Str → Nat → List UInt64)
    (hn : Fair parse r.url quotes node accepted) (p : Plan) (hc : p.CanPay quotes) (base txs : List Transaction)
    (s : Progress) (l : L) (hl : accepted l = base ++ txs) (hr : p.Reliable parse quotes txs s)
    (hb : (accepted l).length < 2 ^ 64) :
    ∃ new, accepted (p.proceed r node s l).2 = base ++ (txs ++ new) ∧ new.length ≤ 1 ∧
      (∀ tx ∈ new, ∃ ns fee, p.Fulfilled ns fee tx ∧ ∀ x ∈ takingPart tx.auth, x.2.toNat = parts x.1 (accepted l)) ∧
      p.Reliable parse quotes (txs ++ new) (p.proceed r node s l).1 := by
  cases s with
  | knows ns =>
    by_cases hlt : ns.length < p.accounts.length
    · obtain ⟨n, l', h1, h2, _⟩ := proceed_ask parse r node accepted quotes hn p hc l ns hlt hb
      rw [h1]
      refine ⟨[], by rw [List.append_nil, h2, hl], by simp, (fun _ h => absurd h List.not_mem_nil), ?_⟩
      show (ns ++ [n]).length ≤ _
      rw [List.length_append]; exact hlt
    · obtain ⟨t, id, tx, l', h1, h2, h3⟩ :=
        proceed_sign parse hp r node accepted quotes hn p hc l ns (Nat.le_antisymm hr (Nat.le_of_not_lt hlt))
      rw [h1]
      exact ⟨[], by rw [List.append_nil, h2, hl], by simp, (fun _ h => absurd h List.not_mem_nil), ns, id, tx, h3⟩
  | ready t =>
    obtain ⟨ns, id, tx, h⟩ := hr
    obtain ⟨h1, h2⟩ := proceed_send parse r node accepted quotes hn p hc l ns t id tx h
    by_cases hl' : p.Next ns (accepted l)
    · obtain ⟨l', h3, h4⟩ := h1 hl'
      rw [h3]
      refine ⟨[tx], by rw [h4, hl, List.append_assoc], by simp, ?_, ns, id, tx, h, .inl ⟨rfl, by simp⟩⟩
      intro tx' htx
      rw [List.mem_singleton] at htx
      subst htx
      obtain ⟨bs, hash, hex, q, fee, quoted, _, _, _, _, _, h6, _⟩ := h
      exact ⟨ns, fee, h6, (next_iff h6 _).1 hl'⟩
    · obtain ⟨e, l', h3, h4⟩ := h2 hl'
      rw [h3]
      exact ⟨[], by rw [List.append_nil, h4, hl], by simp, (fun _ h => absurd h List.not_mem_nil), ns, id, tx, h, .inr ⟨e, rfl⟩⟩
  | answered t x => exact ⟨[], by rw [List.append_nil]; exact hl, by simp, (fun _ h => absurd h List.not_mem_nil), by rw [List.append_nil]; exact hr⟩
  | failed => exact hr.elim

omit [DecidableEq ι] in
theorem plan_reliable_mono {parse : Arr 33 → Option Secp.PK} {quotes : Str → Nat → List UInt64} {p : Plan}
    {txs : List Transaction} (new : List Transaction) {s : Progress} (h : p.Reliable parse quotes txs s) :
    p.Reliable parse quotes (txs ++ new) s := by
  cases s with
  | answered t x =>
    obtain ⟨n, id, tx, h1, h2⟩ := h
    refine ⟨n, id, tx, h1, ?_⟩
    rcases h2 with ⟨h2, h3⟩ | h2
    · exact .inl ⟨h2, List.mem_append_left _ h3⟩
    · exact .inr h2
  | _ => exact h

/-- One event: at most one transaction is accepted, and what programs hold and what is on its way stays right. -/
theorem mixed_event [Secp.Lawful] (parse : Arr 33 → Option Secp.PK) (hp : ∀ k, parse (Secp.serialize k) = some k)
    (r : StacksRPC) (node : StatefulNode L) (accepted : L → List Transaction) (quotes : Str → Nat → List UInt64)
    (hn : Fair parse r.url quotes node accepted) (plans : ι → Plan) (hc : ∀ i, (plans i).CanPay quotes)
    (base : List Transaction) (e : Event ι) (w : Scene L ι) (txs : List Transaction)
    (h1 : accepted w.node = base ++ txs) (h2 : (accepted w.node).length < 2 ^ 64)
    (h4 : ∀ i, (plans i).Reliable parse quotes txs (w.progress i))
    (h5 : ∀ x ∈ w.way, ∃ ns id tx, (plans x.1).Prepared parse quotes ns x.2 id tx) :
    ∃ new, accepted (w.next r node plans e).node = base ++ (txs ++ new) ∧ new.length ≤ 1 ∧
      (∀ tx ∈ new, ∃ i ns fee, (plans i).Fulfilled ns fee tx ∧
        (∀ x ∈ takingPart tx.auth, x.2.toNat = parts x.1 (accepted w.node)) ∧
        (e = .step i ∨ e = .lose i ∨ ∃ t k, e = .arrive k ∧ w.way[k]? = some (i, t))) ∧
      (∀ i, (plans i).Reliable parse quotes (txs ++ new) ((w.next r node plans e).progress i)) ∧
      (∀ x ∈ (w.next r node plans e).way, ∃ ns id tx, (plans x.1).Prepared parse quotes ns x.2 id tx) ∧
      ∀ x ∈ (w.next r node plans e).way, x ∈ w.way ∨ e = .delay x.1 := by
  have adv := fun i => proceed_reliable parse hp r node accepted quotes hn (plans i) (hc i) base txs
    (w.progress i) w.node h1 (h4 i) h2
  cases e with
  | step i =>
    obtain ⟨new, a1, a2, a3, a4⟩ := adv i
    refine ⟨new, a1, a2, fun tx h => ?_, fun j => ?_, h5, fun x hx => .inl hx⟩
    · obtain ⟨ns, fee, k1, k2⟩ := a3 tx h
      exact ⟨i, ns, fee, k1, k2, .inl rfl⟩
    · show Plan.Reliable _ _ _ _ (if j = i then _ else _)
      split
      · subst j; exact a4
      · exact plan_reliable_mono new (h4 j)
  | lose i =>
    obtain ⟨new, a1, a2, a3, a4⟩ := adv i
    refine ⟨new, a1, a2, fun tx h => ?_, fun j => plan_reliable_mono new (h4 j), h5, fun x hx => .inl hx⟩
    obtain ⟨ns, fee, k1, k2⟩ := a3 tx h
    exact ⟨i, ns, fee, k1, k2, .inr (.inl rfl)⟩
  | delay i =>
    have same : (w.next r node plans (.delay i)).node = w.node ∧
        (w.next r node plans (.delay i)).progress = w.progress ∧
        ∀ x ∈ (w.next r node plans (.delay i)).way, x ∈ w.way ∨ ∃ t, x = (i, t) ∧ w.progress i = .ready t := by
      simp only [Scene.next]
      split
      · rename_i t ht
        refine ⟨rfl, rfl, fun x hx => ?_⟩
        rcases List.mem_append.1 hx with hx | hx
        · exact .inl hx
        · exact .inr ⟨t, List.mem_singleton.1 hx, ht⟩
      · exact ⟨rfl, rfl, fun x hx => .inl hx⟩
    obtain ⟨s1, s2, s3⟩ := same
    refine ⟨[], by rw [List.append_nil, s1]; exact h1, by simp, (fun _ h => absurd h List.not_mem_nil), fun j => ?_,
      fun x hx => ?_, fun x hx => ?_⟩
    · rw [s2]; exact plan_reliable_mono [] (h4 j)
    · rcases s3 x hx with hx | ⟨t, rfl, ht⟩
      · exact h5 x hx
      · have := h4 i
        rw [ht] at this
        exact this
    · rcases s3 x hx with hx | ⟨t, rfl, ht⟩
      · exact .inl hx
      · exact .inr rfl
  | arrive k =>
    cases hk : w.way[k]? with
    | none =>
      have e : w.next r node plans (.arrive k) = w := by simp only [Scene.next, hk]
      rw [e]
      exact ⟨[], by rw [List.append_nil]; exact h1, by simp, (fun _ h => absurd h List.not_mem_nil),
        fun j => plan_reliable_mono [] (h4 j), h5, fun x hx => .inl hx⟩
    | some x =>
      obtain ⟨i, t⟩ := x
      have e : w.next r node plans (.arrive k) =
          { w with node := ((plans i).proceed r node (.ready t) w.node).2 } := by
        simp only [Scene.next, hk, Plan.proceed]
      rw [e]
      obtain ⟨new, a1, a2, a3, a4⟩ := proceed_reliable parse hp r node accepted quotes hn (plans i) (hc i) base
        txs (.ready t) w.node h1 (h5 (i, t) (List.mem_of_getElem? hk)) h2
      refine ⟨new, a1, a2, fun tx h => ?_, fun j => plan_reliable_mono new (h4 j), h5, fun x hx => .inl hx⟩
      obtain ⟨ns, fee, k1, k2⟩ := a3 tx h
      exact ⟨i, ns, fee, k1, k2, .inr (.inr ⟨t, k, rfl, hk⟩)⟩
  | restart i =>
    refine ⟨[], by rw [List.append_nil]; exact h1, by simp, (fun _ h => absurd h List.not_mem_nil), fun j => ?_, h5,
      fun x hx => .inl hx⟩
    show Plan.Reliable _ _ _ _ (if j = i then _ else _)
    split
    · exact Nat.zero_le _
    · exact plan_reliable_mono [] (h4 j)

theorem mixed_inv [Secp.Lawful] (parse : Arr 33 → Option Secp.PK) (hp : ∀ k, parse (Secp.serialize k) = some k)
    (r : StacksRPC) (node : StatefulNode L) (accepted : L → List Transaction) (quotes : Str → Nat → List UInt64)
    (hn : Fair parse r.url quotes node accepted) (plans : ι → Plan) (hc : ∀ i, (plans i).CanPay quotes)
    (base : List Transaction) (es : List (Event ι)) : ∀ (w : Scene L ι) (txs : List Transaction),
    accepted w.node = base ++ txs → (accepted w.node).length + es.length ≤ 2 ^ 64 →
    (∀ tx ∈ txs, ∃ i ns fee, (plans i).Fulfilled ns fee tx) →
    (∀ i, (plans i).Reliable parse quotes txs (w.progress i)) →
    (∀ x ∈ w.way, ∃ ns id tx, (plans x.1).Prepared parse quotes ns x.2 id tx) →
    ∃ txs', accepted (w.run r node plans es).node = base ++ txs' ∧ txs'.length ≤ txs.length + es.length ∧
      (∀ tx ∈ txs', ∃ i ns fee, (plans i).Fulfilled ns fee tx) ∧
      (AllNumbered (accepted w.node) → AllNumbered (accepted (w.run r node plans es).node)) ∧
      ∀ i, (plans i).Reliable parse quotes txs' ((w.run r node plans es).progress i) := by
  induction es with
  | nil => intro w txs h1 _ h3 h4 _; exact ⟨txs, h1, Nat.le_refl _, h3, id, h4⟩
  | cons e es ih =>
    intro w txs h1 h2 h3 h4 h5
    rw [List.length_cons] at h2
    obtain ⟨new, b1, b2, b3, b4, b5, _⟩ := mixed_event parse hp r node accepted quotes hn plans hc base e w txs h1
      (by omega) h4 h5
    have hlen : (accepted (w.next r node plans e).node).length + es.length ≤ 2 ^ 64 := by
      have e1 := congrArg List.length b1
      have e2 := congrArg List.length h1
      simp only [List.length_append] at e1 e2
      omega
    have hful : ∀ tx ∈ txs ++ new, ∃ i ns fee, (plans i).Fulfilled ns fee tx := by
      intro tx h
      rcases List.mem_append.1 h with h | h
      · exact h3 tx h
      · obtain ⟨i, n, fee, h, _⟩ := b3 tx h
        exact ⟨i, n, fee, h⟩
    obtain ⟨txs', c1, c0, c2, c3, c4⟩ := ih (w.next r node plans e) (txs ++ new) b1 hlen hful b4 b5
    refine ⟨txs', c1, ?_, c2, fun h => c3 ?_, c4⟩
    · rw [List.length_append] at c0
      rw [List.length_cons]
      omega
    match new, b1, b2, b3 with
    | [], b1, _, _ => rw [b1, List.append_nil, ← h1]; exact h
    | [tx], b1, _, b3 =>
      obtain ⟨i, n, fee, _, d2, _⟩ := b3 tx (List.mem_singleton.2 rfl)
      rw [b1, ← List.append_assoc, ← h1]
      exact allNumbered_append h d2
    | _ :: _ :: _, _, b2, _ => simp at b2

/-- **C127** Any number of programs pay through one node, each from an account of one key, from an account of several keys
or with a sponsor, in any interleaving of their requests, with answers lost, broadcasts that arrive late, repeatedly or
never, and programs stopped and started again at any point. The node accepts nothing but what they planned, at most one
transaction for each event; in each the nonce of each account is the number of earlier ones it took part in; no request
fails except that a broadcast can be refused; and a program that was told the identifier of its transaction can rely on
it. -/
theorem C127_any_schedule [Secp.Lawful] (parse : Arr 33 → Option Secp.PK)
    (hp : ∀ k, parse (Secp.serialize k) = some k)
    (r : StacksRPC) (node : StatefulNode L) (accepted : L → List Transaction) (quotes : Str → Nat → List UInt64)
    (hn : Fair parse r.url quotes node accepted) (plans : ι → Plan) (hc : ∀ i, (plans i).CanPay quotes)
    (w : Scene L ι) (hw : ∀ i, w.progress i = .knows []) (hy : w.way = []) (es : List (Event ι))
    (hb : (accepted w.node).length + es.length ≤ 2 ^ 64) :
    ∃ txs, accepted (w.run r node plans es).node = accepted w.node ++ txs ∧ txs.length ≤ es.length ∧
      (∀ tx ∈ txs, ∃ i ns fee, (plans i).Fulfilled ns fee tx) ∧
      (AllNumbered (accepted w.node) → AllNumbered (accepted (w.run r node plans es).node)) ∧
      ∀ i, (plans i).Reliable parse quotes txs ((w.run r node plans es).progress i) := by
  obtain ⟨txs, h1, h2, h3⟩ := mixed_inv parse hp r node accepted quotes hn plans hc (accepted w.node) es w [] (by simp) hb
    (fun _ h => absurd h List.not_mem_nil)
    (fun i => by rw [hw i]; exact Nat.zero_le _) (fun x hx => absurd (hy ▸ hx) List.not_mem_nil)
  exact ⟨txs, h1, by simpa using h2, h3⟩

theorem run_append (r : StacksRPC) (node : StatefulNode L) (plans : ι → Plan) (w : Scene L ι)
    (es fs : List (Event ι)) : w.run r node plans (es ++ fs) = (w.run r node plans es).run r node plans fs := by
  unfold Scene.run
  rw [List.foldl_append]

/-- **C127** When a signed transaction is sent, after any schedule, the answer is its identifier and it is accepted if
the nonces of all its accounts are still the next ones; otherwise it is refused and nothing changes. -/
theorem C127_answer [Secp.Lawful] (parse : Arr 33 → Option Secp.PK) (hp : ∀ k, parse (Secp.serialize k) = some k)
    (r : StacksRPC) (node : StatefulNode L) (accepted : L → List Transaction) (quotes : Str → Nat → List UInt64)
    (hn : Fair parse r.url quotes node accepted) (plans : ι → Plan) (hc : ∀ i, (plans i).CanPay quotes)
    (w : Scene L ι) (hw : ∀ i, w.progress i = .knows []) (hy : w.way = []) (es : List (Event ι))
    (hb : (accepted w.node).length + es.length ≤ 2 ^ 64) (i : ι) (t : Transaction)
    (ht : (w.run r node plans es).progress i = .ready t) :
    ∃ ns id tx, (plans i).Prepared parse quotes ns t id tx ∧
      ((plans i).Next ns (accepted (w.run r node plans es).node) →
        (w.run r node plans (es ++ [.step i])).progress i = .answered t (.ok (.ok id)) ∧
        accepted (w.run r node plans (es ++ [.step i])).node = accepted (w.run r node plans es).node ++ [tx]) ∧
      (¬ (plans i).Next ns (accepted (w.run r node plans es).node) →
        (∃ e, (w.run r node plans (es ++ [.step i])).progress i = .answered t (.ok (.err e))) ∧
        accepted (w.run r node plans (es ++ [.step i])).node = accepted (w.run r node plans es).node) := by
  obtain ⟨txs, _, _, _, _, h4⟩ := C127_any_schedule parse hp r node accepted quotes hn plans hc w hw hy es hb
  have h := h4 i
  rw [ht] at h
  obtain ⟨ns, id, tx, h⟩ := h
  obtain ⟨h1, h2⟩ := proceed_send parse r node accepted quotes hn (plans i) (hc i) (w.run r node plans es).node ns t id tx h
  have hrun : w.run r node plans (es ++ [.step i]) = (w.run r node plans es).next r node plans (.step i) :=
    run_append r node plans w es [.step i]
  refine ⟨ns, id, tx, h, fun hl => ?_, fun hl => ?_⟩
  · obtain ⟨l', a1, a2⟩ := h1 hl
    rw [hrun]
    simp only [Scene.next, Scene.put, ht, a1]
    exact ⟨if_pos trivial, a2⟩
  · obtain ⟨e, l', a1, a2⟩ := h2 hl
    rw [hrun]
    simp only [Scene.next, Scene.put, ht, a1]
    exact ⟨⟨e, if_pos trivial⟩, a2⟩

omit [DecidableEq ι] in
/-- What is known of a program whose accounts nobody else uses: its nonces are still the next ones. -/
def UpToDate (parse : Arr 33 → Option Secp.PK) (quotes : Str → Nat → List UInt64) (p : Plan)
    (ts : List Transaction) : Progress → Prop
  | .knows ns => ns.length ≤ p.accounts.length ∧ ns.map UInt64.toNat = (p.accounts.take ns.length).map (parts · ts)
  | .ready t => ∃ ns id tx, p.Prepared parse quotes ns t id tx ∧ p.Next ns ts
  | .answered _ x => ∃ id, x = .ok (.ok id)
  | .failed => False

theorem proceed_upToDate [Secp.Lawful] (parse : Arr 33 → Option Secp.PK) (hp : ∀ k, parse (Secp.serialize k) = some k)
    (r : StacksRPC) (node : StatefulNode L) (accepted : L → List Transaction) (quotes : Str → Nat → List UInt64)
    (hn : Fair parse r.url quotes node accepted) (p : Plan) (hc : p.CanPay quotes)
    (s : Progress) (l : L) (hr : UpToDate parse quotes p (accepted l) s) (hb : (accepted l).length < 2 ^ 64) :
    UpToDate parse quotes p (accepted (p.proceed r node s l).2) (p.proceed r node s l).1 := by
  cases s with
  | knows ns =>
    obtain ⟨hr1, hr2⟩ := hr
    by_cases hlt : ns.length < p.accounts.length
    · obtain ⟨n, l', h1, h2, h3⟩ := proceed_ask parse r node accepted quotes hn p hc l ns hlt hb
      rw [h1]
      refine ⟨by rw [List.length_append]; exact hlt, ?_⟩
      show _ = List.map (parts · (accepted l')) _
      rw [h2, List.length_append, List.map_append, hr2, List.length_singleton, List.take_add_one,
        List.getElem?_eq_getElem hlt, List.map_append, List.map_singleton, h3]
      rfl
    · have he := Nat.le_antisymm hr1 (Nat.le_of_not_lt hlt)
      obtain ⟨t, id, tx, l', h1, h2, h3⟩ := proceed_sign parse hp r node accepted quotes hn p hc l ns he
      rw [h1]
      refine ⟨ns, id, tx, h3, ?_⟩
      rw [he, List.take_length] at hr2
      show _ = List.map (parts · (accepted l')) _
      rw [h2]; exact hr2
  | ready t =>
    obtain ⟨ns, id, tx, h, hl⟩ := hr
    obtain ⟨l', h3, _⟩ := (proceed_send parse r node accepted quotes hn p hc l ns t id tx h).1 hl
    rw [h3]
    exact ⟨id, rfl⟩
  | answered t x => exact hr
  | failed => exact hr

omit [Http] [DecidableEq ι] in
theorem parts_other {p q : Plan} {ns : List UInt64} {fee : UInt64} {tx : Transaction} (h : q.Fulfilled ns fee tx)
    (hd : ∀ s ∈ p.accounts, s ∉ q.accounts) {s : Arr 20} (hs : s ∈ p.accounts) : parts s [tx] = 0 := by
  obtain ⟨h1, h2⟩ := fulfilled_parts h
  rw [parts_one, h2, List.map_fst_zip (by omega), if_neg (hd s hs)]

theorem upToDate_congr {parse : Arr 33 → Option Secp.PK} {quotes : Str → Nat → List UInt64} {p : Plan}
    {ts ts' : List Transaction} (h : ∀ s ∈ p.accounts, parts s ts' = parts s ts) {s : Progress}
    (hu : UpToDate parse quotes p ts s) : UpToDate parse quotes p ts' s := by
  cases s with
  | knows ns =>
    refine ⟨hu.1, hu.2.trans (List.map_congr_left fun s hs => ?_)⟩
    exact (h s (List.mem_of_mem_take hs)).symm
  | ready t =>
    obtain ⟨ns, id, tx, h1, h2⟩ := hu
    exact ⟨ns, id, tx, h1, h2.trans (List.map_congr_left fun s hs => (h s hs).symm)⟩
  | answered t x => exact hu
  | failed => exact hu

/-- **C127** A program whose accounts nobody else uses, and whose requests and answers are not lost, is never refused,
whatever the others do and however often it is started again. -/
theorem C127_own_accounts [Secp.Lawful] (parse : Arr 33 → Option Secp.PK)
    (hp : ∀ k, parse (Secp.serialize k) = some k)
    (r : StacksRPC) (node : StatefulNode L) (accepted : L → List Transaction) (quotes : Str → Nat → List UInt64)
    (hn : Fair parse r.url quotes node accepted) (plans : ι → Plan) (hc : ∀ i, (plans i).CanPay quotes)
    (w : Scene L ι) (hw : ∀ i, w.progress i = .knows []) (hy : w.way = []) (es : List (Event ι))
    (hb : (accepted w.node).length + es.length ≤ 2 ^ 64) (i : ι)
    (ho : ∀ j, j ≠ i → ∀ s ∈ (plans i).accounts, s ∉ (plans j).accounts) (hl : .lose i ∉ es) (hd : .delay i ∉ es)
    (t : Transaction) (x : Outcome Rpc.Error BroadcastResponse)
    (ht : (w.run r node plans es).progress i = .answered t x) :
    ∃ ns id tx, (plans i).Prepared parse quotes ns t id tx ∧ x = .ok (.ok id) ∧
      tx ∈ accepted (w.run r node plans es).node := by
  have key : ∀ (es : List (Event ι)) (w : Scene L ι) (base txs : List Transaction), accepted w.node = base ++ txs →
      (∀ i, (plans i).Reliable parse quotes txs (w.progress i)) →
      (∀ x ∈ w.way, ∃ ns id tx, (plans x.1).Prepared parse quotes ns x.2 id tx) → (∀ x ∈ w.way, x.1 ≠ i) →
      (accepted w.node).length + es.length ≤ 2 ^ 64 → .lose i ∉ es → .delay i ∉ es →
      UpToDate parse quotes (plans i) (accepted w.node) (w.progress i) →
      UpToDate parse quotes (plans i) (accepted (w.run r node plans es).node) ((w.run r node plans es).progress i) := by
    intro es
    induction es with
    | nil => intro w _ _ _ _ _ _ _ _ _ h; exact h
    | cons e es ih =>
      intro w base txs h1 h2 h6 h8 h3 h4 h7 h5
      rw [List.length_cons] at h3
      obtain ⟨new, b1, b2, b3, b4, b5, b6⟩ := mixed_event parse hp r node accepted quotes hn plans hc base e w txs h1
        (by omega) h2 h6
      have hlen : (accepted (w.next r node plans e).node).length + es.length ≤ 2 ^ 64 := by
        have e1 := congrArg List.length b1
        have e2 := congrArg List.length h1
        simp only [List.length_append] at e1 e2
        omega
      refine ih (w.next r node plans e) base (txs ++ new) b1 b4 b5 (fun x hx => ?_) hlen
        (fun h => h4 (List.mem_cons_of_mem _ h)) (fun h => h7 (List.mem_cons_of_mem _ h)) ?_
      · rcases b6 x hx with hx | hx
        · exact h8 x hx
        · intro hi
          rw [hi] at hx
          exact h7 (hx ▸ List.mem_cons_self)
      by_cases hs : e = .step i
      · subst hs
        have : (w.next r node plans (.step i)).progress i = ((plans i).proceed r node (w.progress i) w.node).1 := if_pos rfl
        rw [this]
        exact proceed_upToDate parse hp r node accepted quotes hn (plans i) (hc i) _ w.node h5 (by omega)
      · have hsame : ∀ s ∈ (plans i).accounts,
            parts s (accepted (w.next r node plans e).node) = parts s (accepted w.node) := by
          intro s hm
          rw [b1, ← List.append_assoc, ← h1, parts_append]
          match new, b2, b3 with
          | [], _, _ => rfl
          | [tx], _, b3 =>
            obtain ⟨j, ns, fee, c1, _, c2⟩ := b3 tx (List.mem_singleton.2 rfl)
            have hj : j ≠ i := by
              rintro rfl
              rcases c2 with c2 | c2 | ⟨t, k, rfl, hk⟩
              · exact hs c2
              · exact h4 (c2 ▸ List.mem_cons_self)
              · exact h8 _ (List.mem_of_getElem? hk) rfl
            rw [parts_other c1 (ho j hj) hm]
            omega
          | _ :: _ :: _, b2, _ => simp at b2
        have hprog : (w.next r node plans e).progress i = w.progress i ∨
            (w.next r node plans e).progress i = .knows [] := by
          cases e with
          | step j => exact .inl (if_neg fun h => hs (by rw [h]))
          | lose j => exact .inl rfl
          | delay j =>
            refine .inl ?_
            simp only [Scene.next]
            split <;> rfl
          | arrive k =>
            refine .inl ?_
            simp only [Scene.next]
            split <;> rfl
          | restart j =>
            by_cases hj : i = j
            · exact .inr (if_pos hj)
            · exact .inl (if_neg hj)
        rcases hprog with hprog | hprog
        · rw [hprog]; exact upToDate_congr hsame h5
        · rw [hprog]; exact ⟨Nat.zero_le _, rfl⟩
  have h1 := key es w (accepted w.node) [] (by simp) (fun i => by rw [hw i]; exact Nat.zero_le _)
    (fun x hx => absurd (hy ▸ hx) List.not_mem_nil) (fun x hx => absurd (hy ▸ hx) List.not_mem_nil) hb hl hd
    (by rw [hw i]; exact ⟨Nat.zero_le _, rfl⟩)
  obtain ⟨txs, g1, _, _, _, g4⟩ := C127_any_schedule parse hp r node accepted quotes hn plans hc w hw hy es hb
  have h2 := g4 i
  rw [ht] at h1 h2
  obtain ⟨id, rfl⟩ := h1
  obtain ⟨ns, id', tx, h3, h4⟩ := h2
  rcases h4 with ⟨h4, h5⟩ | ⟨e, h4⟩
  · exact ⟨ns, id', tx, h3, h4, by rw [g1]; exact List.mem_append_right _ h5⟩
  · cases h4

/-- **C127** After any schedule a program that is started again and then left alone comes through: with one request for
the nonce of each account, one for the fee and the broadcast. -/
theorem C127_at_last [Secp.Lawful] (parse : Arr 33 → Option Secp.PK)
    (hp : ∀ k, parse (Secp.serialize k) = some k)
    (r : StacksRPC) (node : StatefulNode L) (accepted : L → List Transaction) (quotes : Str → Nat → List UInt64)
    (hn : Fair parse r.url quotes node accepted) (plans : ι → Plan) (hc : ∀ i, (plans i).CanPay quotes)
    (w : Scene L ι) (i : ι) (hb : (accepted w.node).length < 2 ^ 64) :
    ∃ ns t id tx, (plans i).Prepared parse quotes ns t id tx ∧ (plans i).Next ns (accepted w.node) ∧
      (w.run r node plans (.restart i :: List.replicate ((plans i).accounts.length + 2) (.step i))).progress i =
        .answered t (.ok (.ok id)) ∧
      accepted (w.run r node plans (.restart i :: List.replicate ((plans i).accounts.length + 2) (.step i))).node =
        accepted w.node ++ [tx] := by
  have step : ∀ (w : Scene L ι) s l, (plans i).proceed r node (w.progress i) w.node = (s, l) →
      (w.next r node plans (.step i)).progress i = s ∧ (w.next r node plans (.step i)).node = l := by
    intro w s l h
    simp only [Scene.next, Scene.put, h]
    exact ⟨if_pos trivial, trivial⟩
  have asks : ∀ k, ∀ (w : Scene L ι) (ns : List UInt64), ns.length + k = (plans i).accounts.length →
      w.progress i = .knows ns → (accepted w.node).length < 2 ^ 64 →
      UpToDate parse quotes (plans i) (accepted w.node) (.knows ns) →
      ∃ ns', ns'.length = (plans i).accounts.length ∧
        (w.run r node plans (List.replicate k (.step i))).progress i = .knows ns' ∧
        accepted (w.run r node plans (List.replicate k (.step i))).node = accepted w.node ∧
        (plans i).Next ns' (accepted w.node) := by
    intro k
    induction k with
    | zero =>
      intro w ns h1 h2 h3 h4
      refine ⟨ns, h1, h2, rfl, ?_⟩
      have := h4.2
      rwa [show ns.length = (plans i).accounts.length from h1, List.take_length] at this
    | succ k ih =>
      intro w ns h1 h2 h3 h4
      obtain ⟨n, l', a1, a2, a3⟩ := proceed_ask parse r node accepted quotes hn (plans i) (hc i) w.node ns (by omega) h3
      have hu := proceed_upToDate parse hp r node accepted quotes hn (plans i) (hc i) _ w.node h4 h3
      rw [a1] at hu
      rw [← h2] at a1
      obtain ⟨s1, s2⟩ := step w _ _ a1
      obtain ⟨ns', b1, b2, b3, b4⟩ := ih (w.next r node plans (.step i)) (ns ++ [n])
        (by rw [List.length_append, List.length_singleton]; omega) s1 (by rw [s2, a2]; exact h3)
        (by rw [s2]; exact hu)
      rw [s2, a2] at b3 b4
      exact ⟨ns', b1, b2, b3, b4⟩
  have hw0 : (w.next r node plans (.restart i)).progress i = .knows [] := if_pos rfl
  obtain ⟨ns, b1, b2, b3, b4⟩ := asks (plans i).accounts.length (w.next r node plans (.restart i)) [] (by simp) hw0
    hb ⟨Nat.zero_le _, rfl⟩
  have hrun : w.run r node plans (.restart i :: List.replicate ((plans i).accounts.length + 2) (.step i)) =
      (((w.next r node plans (.restart i)).run r node plans
        (List.replicate (plans i).accounts.length (.step i))).next r node plans (.step i)).next r node plans (.step i) := by
    have : (Event.restart i :: List.replicate ((plans i).accounts.length + 2) (.step i)) =
        [.restart i] ++ List.replicate (plans i).accounts.length (.step i) ++ [.step i, .step i] := by
      rw [List.replicate_add]; rfl
    rw [this, run_append, run_append]
    rfl
  rw [hrun]
  generalize (w.next r node plans (.restart i)).run r node plans
    (List.replicate (plans i).accounts.length (.step i)) = w1 at *
  replace b3 : accepted w1.node = accepted w.node := b3
  replace b4 : (plans i).Next ns (accepted w.node) := b4
  obtain ⟨t, id, tx, l1, c1, c2, c3⟩ := proceed_sign parse hp r node accepted quotes hn (plans i) (hc i) w1.node ns b1
  rw [← b2] at c1
  obtain ⟨d1, d2⟩ := step w1 _ _ c1
  obtain ⟨l2, e1, e2⟩ := (proceed_send parse r node accepted quotes hn (plans i) (hc i) l1 ns t id tx c3).1
    (by rw [c2, b3]; exact b4)
  rw [← d1, ← d2] at e1
  obtain ⟨f1, f2⟩ := step _ _ _ e1
  exact ⟨ns, t, id, tx, c3, b4, f1, by rw [f2, e2, c2, b3]⟩

/-- **C127** Two signed transactions that share an account, as origin or as sponsor of either, both with the next nonces:
the first to be sent is accepted and the other is refused. -/
theorem C127_shared_account [Secp.Lawful] (parse : Arr 33 → Option Secp.PK)
    (r : StacksRPC) (node : StatefulNode L) (accepted : L → List Transaction) (quotes : Str → Nat → List UInt64)
    (hn : Fair parse r.url quotes node accepted) (plans : ι → Plan) (hc : ∀ i, (plans i).CanPay quotes)
    (w : Scene L ι) (i j : ι) (hij : i ≠ j) (s : Arr 20) (hsi : s ∈ (plans i).accounts) (hsj : s ∈ (plans j).accounts)
    (ti tj txi txj : Transaction) (idi idj : Str) (ni nj : List UInt64)
    (hi : (plans i).Prepared parse quotes ni ti idi txi) (hj : (plans j).Prepared parse quotes nj tj idj txj)
    (hwi : w.progress i = .ready ti) (hwj : w.progress j = .ready tj)
    (hni : (plans i).Next ni (accepted w.node)) (hnj : (plans j).Next nj (accepted w.node)) :
    (w.run r node plans [.step i, .step j]).progress i = .answered ti (.ok (.ok idi)) ∧
    (∃ e, (w.run r node plans [.step i, .step j]).progress j = .answered tj (.ok (.err e))) ∧
    accepted (w.run r node plans [.step i, .step j]).node = accepted w.node ++ [txi] := by
  obtain ⟨l1, a1, a2⟩ := (proceed_send parse r node accepted quotes hn (plans i) (hc i) w.node ni ti idi txi hi).1 hni
  have hno : ¬ (plans j).Next nj (accepted l1) := by
    intro h
    obtain ⟨bs, hash, hex, q, fee, quoted, _, _, _, _, _, h6, _⟩ := hi
    obtain ⟨k1, k2⟩ := fulfilled_parts h6
    have hone : parts s [txi] = 1 := by
      rw [parts_one, k2, List.map_fst_zip (by omega), if_pos hsi]
    have e1 : (plans j).accounts.map (parts · (accepted l1)) = (plans j).accounts.map (parts · (accepted w.node)) :=
      h.symm.trans hnj
    have e2 := List.map_inj_left.1 e1 s hsj
    rw [a2, parts_append, hone] at e2
    omega
  obtain ⟨e, l2, b1, b2⟩ := (proceed_send parse r node accepted quotes hn (plans j) (hc j) l1 nj tj idj txj hj).2 hno
  have hji : j ≠ i := hij.symm
  refine ⟨?_, ⟨e, ?_⟩, ?_⟩
  · simp only [Scene.run, List.foldl, Scene.next, Scene.put, hwi, hwj, a1, b1, if_true, hij, hji, if_false]
  · simp only [Scene.run, List.foldl, Scene.next, Scene.put, hwi, hwj, a1, b1, if_true, hji, if_false]
  · simp only [Scene.run, List.foldl, Scene.next, Scene.put, hwi, hwj, a1, b1, hji, if_false]
    rw [b2, a2]

end

/-! ## The hypotheses are satisfiable -/

section
attribute [local instance] Concrete.realHashes Concrete.toySecp toyHttp
local instance mixedLawful : Secp.Lawful := Concrete.toyLawful

/-- A node that serves all accounts, asks one unit for a byte, or two or three, and refuses wrong nonces. -/
def fairNode (parse : Arr 33 → Option Secp.PK) : StatefulNode (List Transaction) := fun l q =>
  match q.body with
  | .empty =>
    match C32.addressFromStr (q.url.drop 21) with
    | .ok a => (.response 200 ("x".toList, .obj [("balance".toList, .str "0x10".toList), ("locked".toList, .str "0x0".toList),
      ("unlock_height".toList, .num 0), ("nonce".toList, .num (parts a.hash l)), ("balance_proof".toList, .str []),
      ("nonce_proof".toList, .str [])]), l)
    | _ => (.transport (), l)
  | .json (.obj [_, (_, .num n)]) => (.response 200 ("x".toList, .obj [("estimations".toList, .arr ([1, 2, 3].map fun i =>
      .obj [("fee".toList, .num (UInt64.ofNat (i * n)).toNat), ("fee_rate".toList, .num i)]))]), l)
  | .json _ => (.transport (), l)
  | .bytes bs =>
    match (readTransaction parse).run bs with
    | some (t, []) =>
      if (takingPart t.auth).all fun x => x.2.toNat == parts x.1 l then
        (.response 200 (hexText (Hashes.sha512_256 bs).1, .null), l ++ [t])
      else
        (.response 400 ("x".toList, .obj [("error".toList, .str "transaction rejected".toList),
          ("reason".toList, .str "ConflictingNonceInMempool".toList), ("txid".toList, .str [])]), l)
    | _ => (.transport (), l)

theorem fairNode_bytes (parse : Arr 33 → Option Secp.PK) (l : List Transaction) (bs : Bytes) (t : Transaction)
    (h2 : (readTransaction parse).run bs = some (t, [])) :
    fairNode parse l (broadcastRequest "http://n".toList bs) =
      if (takingPart t.auth).all fun x => x.2.toNat == parts x.1 l then
        (.response 200 (hexText (Hashes.sha512_256 bs).1, .null), l ++ [t])
      else
        (.response 400 ("x".toList, .obj [("error".toList, .str "transaction rejected".toList),
          ("reason".toList, .str "ConflictingNonceInMempool".toList), ("txid".toList, .str [])]), l) := by
  unfold fairNode
  simp only [broadcastRequest, h2]

theorem fairNode_fair (parse : Arr 33 → Option Secp.PK) :
    Fair parse "http://n".toList (fun _ n => [1, 2, 3].map fun i => UInt64.ofNat (i * n)) (fairNode parse) id where
  account l s signer v n hs hn := by
    have e : (fairNode parse l (accountRequest "http://n".toList s)) = (.response 200 ("x".toList,
        .obj [("balance".toList, .str "0x10".toList), ("locked".toList, .str "0x0".toList),
        ("unlock_height".toList, .num 0), ("nonce".toList, .num (parts signer l)), ("balance_proof".toList, .str []),
        ("nonce_proof".toList, .str [])]), l) := by
      show (match C32.addressFromStr s with
        | .ok a => ((.response 200 ("x".toList, .obj [("balance".toList, .str "0x10".toList), ("locked".toList, .str "0x0".toList),
          ("unlock_height".toList, .num 0), ("nonce".toList, .num (parts a.hash l)), ("balance_proof".toList, .str []),
          ("nonce_proof".toList, .str [])]) : Reply), l)
        | _ => (.transport (), l)) = _
      rw [C32.fromStr_iff.2 hs]
    rw [e]
    refine ⟨200, _, _, ⟨"0x10".toList, "0x0".toList, 0, n, [], []⟩, rfl, by decide, rfl, .inl ⟨_, rfl, ?_⟩, rfl⟩
    intro f hf
    simp only [List.mem_cons, List.not_mem_nil, or_false] at hf
    have hn : n.toNat = parts signer l := hn
    rcases hf with rfl | rfl | rfl | rfl | rfl | rfl <;> simp only [hn] <;> rfl
  fees l hex n := (oneAccountNode_honest parse ⟨List.replicate 20 0, rfl⟩).fees l hex n
  account_state l s := by
    show (fairNode parse l (accountRequest "http://n".toList s)).2 = l
    unfold fairNode
    simp only [accountRequest]
    split <;> rfl
  fees_state l hex n := rfl
  accept l bs t _ h2 _ h4 := by
    rw [id] at h4
    rw [fairNode_bytes parse l bs t h2, if_pos (List.all_eq_true.2 fun x hx => by simpa using h4 x hx)]
    refine ⟨⟨200, _, rfl, by decide, ?_⟩, rfl⟩
    refine if_neg fun h => ?_
    have h' := (Hex.C01_hex_roundtrip (Hashes.sha512_256 bs).1).1
    rw [Hex.bytesToHex_eq, show hexText (Hashes.sha512_256 bs).1 = [] from h] at h'
    have : ([] : Bytes) = (Hashes.sha512_256 bs).1 := Outcome.ok.inj h'
    have := congrArg List.length this
    rw [(Hashes.sha512_256 bs).2] at this
    cases this
  refuse l bs t _ h2 h4 := by
    rw [id] at h4
    obtain ⟨x, hx, h4⟩ := h4
    rw [fairNode_bytes parse l bs t h2, if_neg (fun h => h4 (by simpa using List.all_eq_true.1 h x hx))]
    refine ⟨⟨400, _, _, ⟨"transaction rejected".toList, "ConflictingNonceInMempool".toList, []⟩, rfl, by decide, rfl,
      .inl ⟨_, rfl, fun f hf => ?_⟩⟩, rfl⟩
    simp only [List.mem_cons, List.not_mem_nil, or_false] at hf
    rcases hf with rfl | rfl | rfl <;> rfl

/-- Four programs: a transfer from an account, one that this account sponsors for another, one of this other account
alone, and one of two of three keys. -/
def exPlans (a b c : Str) : Fin 4 → Plan
  | 0 => .alone a 2 (.transfer exTransferBuilder)
  | 1 => .sponsored 1 ⟨exTx, exKey 2, b, exKey 1, a⟩
  | 2 => .alone b 0 (.transfer { exTransferBuilder with sender := exKey 2 })
  | 3 => .together c 0 [.signs (exKey 1), .absent (Secp.pub (exKey 2)), .signs (exKey 3)] 2 .p2wsh exTx

theorem exPlans_canPay : ∃ a b c, ∀ i,
    (exPlans a b c i).CanPay (fun _ n => [1, 2, 3].map fun i => UInt64.ofNat (i * n)) := by
  obtain ⟨a, ha⟩ := (C32.C10_c32_address_versions (hash160Of (Secp.serialize (Secp.pub (exKey 1))).1).1 26).1 (by decide)
  obtain ⟨b, hb⟩ := (C32.C10_c32_address_versions (hash160Of (Secp.serialize (Secp.pub (exKey 2))).1).1 26).1 (by decide)
  obtain ⟨signer, hsig⟩ : ∃ s, bitcoinSigner .p2wsh 2
      ([.signs (exKey 1), .absent (Secp.pub (exKey 2)), .signs (exKey 3)].map Participant.key) = some s := ⟨_, rfl⟩
  obtain ⟨c, hs⟩ := (C32.C10_c32_address_versions signer.1 21).1 (by decide)
  have hne : accountOf (exKey 2) ≠ accountOf (exKey 1) := by
    show hash160Of (Secp.serialize (Secp.pub (exKey 2))).1 ≠ hash160Of (Secp.serialize (Secp.pub (exKey 1))).1
    decide +kernel
  have ha' : ∃ v, IsAddress a v (accountOf (exKey 1)).1 := ⟨26, C32.fromStr_iff.1 <| C32.C12_address_from_str_roundtrip _ _ _ ha⟩
  have hb' : ∃ v, IsAddress b v (accountOf (exKey 2)).1 := ⟨26, C32.fromStr_iff.1 <| C32.C12_address_from_str_roundtrip _ _ _ hb⟩
  refine ⟨a, b, c, fun i => ?_⟩
  match i with
  | 0 => exact ⟨fun _ _ => by simp [exPlans, Plan.choice], exTransferOrder_acceptable, ha'⟩
  | 1 => exact ⟨fun _ _ => by simp [exPlans, Plan.choice], exBody, hb', ha', hne⟩
  | 2 => exact ⟨fun _ _ => by simp [exPlans, Plan.choice], exTransferOrder_acceptable, hb'⟩
  | 3 => exact ⟨fun _ _ => by simp [exPlans, Plan.choice], exBody, rfl, by decide, by decide, signer, 21, hsig,
      C32.fromStr_iff.1 (C32.C12_address_from_str_roundtrip _ _ _ hs)⟩

/-- C127: a schedule in which the sponsor pays for itself and for another at the same time, with a lost answer, a late
broadcast and a restart. -/
example : ∃ (parse : Arr 33 → Option Secp.PK) (a b c : Str) (txs : List Transaction),
    (({ progress := fun _ => .knows [], node := [] : Scene (List Transaction) (Fin 4) }).run ⟨"http://n".toList⟩ (fairNode parse)
      (exPlans a b c) [.step 0, .step 1, .step 1, .step 3, .step 0, .step 1, .lose 3, .step 3, .delay 1, .step 0, .step 1,
        .arrive 0, .step 3, .restart 1, .step 1, .step 1, .step 2, .step 1, .step 1, .step 2, .step 2]).node = txs ∧
      AllNumbered txs ∧ ∀ tx ∈ txs, ∃ i ns fee, (exPlans a b c i).Fulfilled ns fee tx := by
  obtain ⟨parse, hp⟩ := (parser_exists : ∃ parse : Arr 33 → Option Secp.PK, _)
  obtain ⟨a, b, c, hc⟩ := exPlans_canPay
  obtain ⟨txs, h1, _, h2, h3, _⟩ := C127_any_schedule parse hp ⟨"http://n".toList⟩ (fairNode parse) id _
    (fairNode_fair parse) (exPlans a b c) hc { progress := fun _ => .knows [], node := [] } (fun _ => rfl) rfl
    [.step 0, .step 1, .step 1, .step 3, .step 0, .step 1, .lose 3, .step 3, .delay 1, .step 0, .step 1,
        .arrive 0, .step 3, .restart 1, .step 1, .step 1, .step 2, .step 1, .step 1, .step 2, .step 2] (by simp)
  have h1 : _ = txs := h1
  refine ⟨parse, a, b, c, txs, h1, ?_, h2⟩
  rw [← h1]
  refine h3 ?_
  rintro pre t post h
  exact absurd (congrArg List.length h) (by simp)

/-- C127: the account of three keys is nobody else's. -/
example (a b c : Str) : ∀ j, j ≠ 3 → ∀ s ∈ (exPlans a b c 3).accounts, s ∉ (exPlans a b c j).accounts := by
  intro j hj
  match j with
  | 0 => show ∀ s ∈ (bitcoinSigner .p2wsh 2 [Secp.pub (exKey 1), Secp.pub (exKey 2), Secp.pub (exKey 3)]).toList, s ∉ [hash160Of (Secp.serialize (Secp.pub (exKey 1))).1]; decide +kernel
  | 1 => show ∀ s ∈ (bitcoinSigner .p2wsh 2 [Secp.pub (exKey 1), Secp.pub (exKey 2), Secp.pub (exKey 3)]).toList, s ∉ [hash160Of (Secp.serialize (Secp.pub (exKey 2))).1,
      hash160Of (Secp.serialize (Secp.pub (exKey 1))).1]; decide +kernel
  | 2 => show ∀ s ∈ (bitcoinSigner .p2wsh 2 [Secp.pub (exKey 1), Secp.pub (exKey 2), Secp.pub (exKey 3)]).toList, s ∉ [hash160Of (Secp.serialize (Secp.pub (exKey 2))).1]; decide +kernel
  | 3 => exact absurd rfl hj

/-- C127: the sponsor's own payment comes through after the other one was prepared, which is refused then and comes
through when it starts again. -/
example : ∃ (parse : Arr 33 → Option Secp.PK) (a b c : Str) (t : Transaction) (id : Str),
    (({ progress := fun _ => .knows [], node := [] : Scene (List Transaction) (Fin 4) }).run ⟨"http://n".toList⟩ (fairNode parse)
      (exPlans a b c) ([.step 1, .step 1, .step 1, .step 0, .step 0, .step 0, .step 1] ++
        (.restart 1 :: List.replicate 4 (.step 1)))).progress 1 = .answered t (.ok (.ok id)) := by
  obtain ⟨parse, hp⟩ := (parser_exists : ∃ parse : Arr 33 → Option Secp.PK, _)
  obtain ⟨a, b, c, hc⟩ := exPlans_canPay
  obtain ⟨txs, h1, h0, _⟩ := C127_any_schedule parse hp ⟨"http://n".toList⟩ (fairNode parse) id _
    (fairNode_fair parse) (exPlans a b c) hc { progress := fun _ => .knows [], node := [] } (fun _ => rfl) rfl
    [.step 1, .step 1, .step 1, .step 0, .step 0, .step 0, .step 1] (by simp)
  obtain ⟨ns, t, i, tx, _, _, h, _⟩ := C127_at_last parse hp ⟨"http://n".toList⟩ (fairNode parse) id _
    (fairNode_fair parse) (exPlans a b c) hc (Scene.run ⟨"http://n".toList⟩ (fairNode parse) (exPlans a b c)
      { progress := fun _ => .knows [], node := [] } [.step 1, .step 1, .step 1, .step 0, .step 0, .step 0, .step 1]) 1
    (by rw [h1]; simp at h0 ⊢; omega)
  exact ⟨parse, a, b, c, t, i, by rw [run_append]; exact h⟩

/-- C127: both transactions are ready and up to date, and share the sponsor. -/
example : ∃ (parse : Arr 33 → Option Secp.PK) (a b c : Str) (t : Transaction) (e : BroadcastErr),
    (({ progress := fun _ => .knows [], node := [] : Scene (List Transaction) (Fin 4) }).run ⟨"http://n".toList⟩ (fairNode parse)
      (exPlans a b c) [.step 1, .step 1, .step 1, .step 0, .step 0, .step 0, .step 1]).progress 1 =
        .answered t (.ok (.err e)) := by
  obtain ⟨parse, hp⟩ := (parser_exists : ∃ parse : Arr 33 → Option Secp.PK, _)
  obtain ⟨a, b, c, hc⟩ := exPlans_canPay
  have hn := fairNode_fair parse
  let r : StacksRPC := ⟨"http://n".toList⟩
  let node := fairNode parse
  let ps := exPlans a b c
  obtain ⟨n1, l1, a1, a2, a3⟩ := proceed_ask parse r node id _ hn (ps 1) (hc 1) [] []
    (by show 0 < 2; decide) (by decide)
  obtain ⟨n2, l2, b1, b2, b3⟩ := proceed_ask parse r node id _ hn (ps 1) (hc 1) l1 [n1]
    (by show 1 < 2; decide) (by rw [a2]; decide)
  obtain ⟨t1, i1, x1, l3, c1, c2, c3⟩ := proceed_sign parse hp r node id _ hn (ps 1) (hc 1) l2 [n1, n2] rfl
  obtain ⟨n3, l4, d1, d2, d3⟩ := proceed_ask parse r node id _ hn (ps 0) (hc 0) l3 [] (by show 0 < 1; decide)
    (by rw [c2, b2, a2]; decide)
  obtain ⟨t0, i0, x0, l5, e1, e2, e3⟩ := proceed_sign parse hp r node id _ hn (ps 0) (hc 0) l4 [n3] rfl
  have h0 : id l5 = [] := by rw [e2, d2, c2, b2, a2]; rfl
  let w : Scene (List Transaction) (Fin 4) := Scene.run r node ps { progress := fun _ => .knows [], node := [] }
    [.step 1, .step 1, .step 1, .step 0, .step 0]
  have hw : w.progress 0 = .ready t0 ∧ w.progress 1 = .ready t1 ∧ w.node = l5 := by
    have h01 : ((0 : Fin 4) = 1) = False := by simp
    have hall : w.progress = (fun j => if j = 0 then .ready t0 else if j = 0 then .knows [n3] else if j = 1 then .ready t1
        else if j = 1 then .knows [n1, n2] else if j = 1 then .knows [n1] else .knows []) ∧ w.node = l5 := by
      simp only [w, Scene.run, List.foldl, Scene.next, Scene.put, a1, List.nil_append, b1, List.cons_append, c1, d1, e1,
        if_true, h01, if_false, and_self]
    exact ⟨by rw [hall.1]; rfl, by rw [hall.1]; rfl, hall.2⟩
  obtain ⟨_, ⟨e, h⟩, _⟩ := C127_shared_account parse r node id _ hn ps hc w 0 1 (by decide) (accountOf (exKey 1))
    List.mem_cons_self (List.mem_cons_of_mem _ List.mem_cons_self) t0 t1 x0 x1 i0 i1 [n3] [n1, n2] e3 c3 hw.1 hw.2.1
    (by rw [hw.2.2, h0]; rw [c2, b2, a2] at d3; show [_] = [_]; rw [d3]; rfl)
    (by
      rw [hw.2.2, h0]
      rw [a2] at b3
      show [_, _] = [_, _]
      rw [a3, b3]; rfl)
  exact ⟨parse, a, b, c, t1, e, h⟩

end

end Stacks.Rpc
