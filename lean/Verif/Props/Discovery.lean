import Verif.Model.Discovery
import Verif.Props.Endpoint
import Verif.Lemmas.Lists

/-!
# C114: Discovery tells clients which endpoints there are

The answers do not depend on what was asked before; what is listed can be opened. The list is made when it is asked
for first, under the lock of the server for reading, which is then taken again: a Close at that moment stops the server
for good.
-/

namespace Opcua.Discovery

open Opcua.Endpoint (Config Desc Policy Mode TokenType)

namespace Spec

/-- The combinations of mode and policy of a server, the weakest first. -/
def combos (allowNone : Bool) : List (Mode × Policy) :=
  (if allowNone then [(.none, .none)] else []) ++
  [(.sign, .basic128Rsa15), (.sign, .basic256), (.sign, .basic256Sha256), (.sign, .aes128Sha256RsaOaep),
   (.sign, .aes256Sha256RsaPss),
   (.signAndEncrypt, .basic128Rsa15), (.signAndEncrypt, .basic256), (.signAndEncrypt, .basic256Sha256),
   (.signAndEncrypt, .aes128Sha256RsaOaep), (.signAndEncrypt, .aes256Sha256RsaPss)]

/-- A kind of user is offered if the server has an authenticator for it. -/
def Offers (c : Config) : TokenType → Bool
  | .anonymous => c.anonymous
  | .userName => c.userName
  | .certificate => c.x509
  | .issued => false

/-- What a client may expect of a list of endpoints at `url`. -/
structure Good (s : Srv) (url : String) (l : List Entry) : Prop where
  /-- every combination, once, the weakest first -/
  combos : l.map (fun e => (e.desc.mode, e.desc.policy)) = combos s.config.allowNone
  url : ∀ e ∈ l, e.url = url
  server : ∀ e ∈ l, e.server = s.app ∧ e.profile = tcp ∧ e.desc.certificate = s.config.certificate
  /-- later endpoints have higher levels -/
  levels : l.Pairwise fun a b => a.desc.level < b.desc.level
  /-- each endpoint offers the kinds of users the server knows -/
  kinds : ∀ e ∈ l, ∀ k, (∃ t ∈ e.desc.tokens, t.kind = k) ↔ Offers s.config k = true
  /-- no two token policies have one id -/
  ids : (l.flatMap fun e => e.desc.tokens.map (·.id)).Nodup

/-- A goroutine whose calls have all returned. -/
def Done (t : Thread) : Prop := t.at_ = .idle ∧ t.todo = []

end Spec

open Spec

/-! ## The answers -/

theorem appendIf_eq {α : Type} (h : String) (ws : List String) (a : α) (out : List α) :
    appendIf h ws a out = out ++ if h ∈ ws then [a] else [] := by
  induction ws with
  | nil => simp [appendIf]
  | cons w ws ih =>
    simp only [appendIf, ih, List.mem_cons]
    by_cases hw : h = w <;> simp [hw]

theorem getEndpoints_eq (es : List Entry) (url : String) (ps : List String) :
    getEndpoints es url ps =
      (es.filter fun e => decide (ps = [] ∨ e.profile ∈ ps)).map fun e => { e with url := url } := by
  have key : ∀ out, es.foldl (fun out e =>
      if ps.length > 0 then appendIf e.profile ps { e with url := url } out
      else out ++ [{ e with url := url }]) out =
      out ++ (es.filter fun e => decide (ps = [] ∨ e.profile ∈ ps)).map fun e => { e with url := url } := by
    induction es with
    | nil => intro out; simp
    | cons e es ih =>
      intro out
      rw [List.foldl_cons, ih]
      cases ps with
      | nil => simp
      | cons p ps =>
        simp only [List.length_cons, Nat.zero_lt_succ, ↓reduceIte, gt_iff_lt, appendIf_eq]
        by_cases hp : e.profile ∈ p :: ps <;> simp [hp, List.filter_cons] <;>
          simp only [List.mem_cons] at hp <;> simp [hp]
  simpa [getEndpoints] using key []

/-- The list is always the one that is made first. -/
theorem run_inv (s : Srv) (hs : s.cache = none) (rs : List Req) :
    run s rs = s ∨ run s rs = { s with cache := some (build s) } := by
  induction rs using snocInd with
  | nil => exact .inl rfl
  | append_singleton rs r ih =>
    have h : run s (rs ++ [r]) = (serve (run s rs) r).2 := by simp [run]
    rw [h]
    rcases ih with ih | ih <;> rw [ih] <;> cases r <;> simp [serve, listed, hs, build]

theorem listed_run (s : Srv) (hs : s.cache = none) (rs : List Req) : (listed (run s rs)).1 = build s := by
  rcases run_inv s hs rs with h | h <;> rw [h] <;> simp [listed, hs, build]

/-- **C114 (servers).** Whatever was asked before, FindServers answers with the server itself if no URIs are given or
its own is among them, once, and with nothing else. -/
theorem C114_servers (s : Srv) (hs : s.cache = none) (rs : List Req) (uris : List String) :
    (serve (run s rs) (.findServers uris)).1 = .servers (if uris = [] ∨ s.app.uri ∈ uris then [s.app] else []) := by
  have : (run s rs).app = s.app := by rcases run_inv s hs rs with h | h <;> rw [h]
  cases uris with
  | nil => simp [serve, findServers, this]
  | cons u us => simp [serve, findServers, this, appendIf_eq]

theorem good_build (s : Srv) (url : String) : Good s url ((build s).map fun e => { e with url := url }) := by
  obtain ⟨k, hk0, hk⟩ := Endpoint.endpoints_eq s.config
  have hmap : (build s).map (fun e => { e with url := url })
      = (Endpoint.endpoints s.config).map fun d => ⟨url, s.app, tcp, d⟩ := by
    simp [build, Function.comp_def]
  rw [hmap, hk]
  obtain ⟨app, u, c, cache⟩ := s
  obtain ⟨an, a, un, x, cert⟩ := c
  cases an
  · simp only [Bool.false_eq_true, ↓reduceIte] at hk0
    subst hk0
    refine ⟨by simp [Spec.combos], by simp, by simp, by simp, ?_, ?_⟩
    · intro e he kind
      simp only [List.mem_map] at he
      obtain ⟨d, hd, rfl⟩ := he
      simp at hd
      rcases hd with rfl | rfl | rfl | rfl | rfl | rfl | rfl | rfl | rfl | rfl <;>
        cases a <;> cases un <;> cases x <;> cases kind <;> simp [Endpoint.tokensAt, Offers]
    · cases a <;> cases un <;> cases x <;> simp [Endpoint.tokensAt]
  · simp only [↓reduceIte] at hk0
    subst hk0
    refine ⟨by simp [Spec.combos], by simp, by simp, by simp, ?_, ?_⟩
    · intro e he kind
      simp only [List.mem_map] at he
      obtain ⟨d, hd, rfl⟩ := he
      simp at hd
      rcases hd with rfl | rfl | rfl | rfl | rfl | rfl | rfl | rfl | rfl | rfl | rfl <;>
        cases a <;> cases un <;> cases x <;> cases kind <;> simp [Endpoint.tokensAt, Offers]
    · cases a <;> cases un <;> cases x <;> simp [Endpoint.tokensAt]

theorem build_profile (s : Srv) : ∀ e ∈ build s, e.profile = tcp := by
  intro e he
  simp only [build, List.mem_map] at he
  obtain ⟨d, -, rfl⟩ := he
  rfl

/-- **C114 (endpoints).** Whatever was asked before, GetEndpoints answers with a good list at the URL that the client
names if it wants any transport or the one the server has, and with nothing otherwise. -/
theorem C114_endpoints (s : Srv) (hs : s.cache = none) (rs : List Req) (url : String) (ps : List String) :
    ∃ l, (serve (run s rs) (.getEndpoints url ps)).1 = .endpoints l ∧
      (ps = [] ∨ tcp ∈ ps → Good s url l) ∧ (ps ≠ [] → tcp ∉ ps → l = []) := by
  refine ⟨_, rfl, ?_, ?_⟩
  · intro h
    rw [listed_run s hs, getEndpoints_eq, List.filter_eq_self.2]
    · exact good_build s url
    · intro e he
      simp only [build_profile s e he, decide_eq_true_eq]
      exact h
  · intro h1 h2
    rw [listed_run s hs, getEndpoints_eq, List.filter_eq_nil_iff.2, List.map_nil]
    intro e he
    simp [build_profile s e he, h1, h2]

/-- **C114 (the list in the session).** Nor do the URLs that clients name change the list in the answer to
CreateSession: it has the URL of the server. -/
theorem C114_session (s : Srv) (hs : s.cache = none) (rs : List Req) :
    ∃ l, (serve (run s rs) .createSession).1 = .endpoints l ∧ Good s s.url l := by
  refine ⟨_, rfl, ?_⟩
  rw [listed_run s hs]
  have := good_build s s.url
  have h : (build s).map (fun e => { e with url := s.url }) = build s := by
    simp [build, Function.comp_def]
  rwa [h] at this

def demoSrv : Srv :=
  ⟨⟨"urn:demo", ["opc.tcp://demo:4840"], 0⟩, "opc.tcp://demo:4840", ⟨true, true, true, false, [1, 2]⟩, none⟩

example : ∃ l, (serve (run demoSrv [.getEndpoints "opc.tcp://10.0.0.1:4840" [], .createSession])
    (.getEndpoints "opc.tcp://alias:4840" [tcp])).1 = .endpoints l ∧ l.length = 11 := ⟨_, rfl, by decide +kernel⟩

example : (serve demoSrv (.findServers ["urn:other", "urn:demo", "urn:demo"])).1 = .servers [demoSrv.app] := by
  decide +kernel

/-- **C114 (what is listed can be opened, partial).** A channel with the policy and the mode of a listed endpoint is
given this endpoint. Missing: a server without a URL. -/
theorem C114_open_partial (s : Srv) (hs : s.cache = none) (hu : s.url ≠ "") (rs rs' : List Req) (url : String)
    (ps : List String) (l : List Entry) (hl : (serve (run s rs) (.getEndpoints url ps)).1 = .endpoints l) (e : Entry)
    (he : e ∈ l) :
    ∃ e', (serve (run s rs') (.openChannel e.desc.policy e.desc.mode)).1 = .channel (.endpoint (some e')) ∧
      e'.desc = e.desc ∧ e'.url = s.url := by
  simp only [serve, Ans.endpoints.injEq] at hl
  subst hl
  rw [listed_run s hs, getEndpoints_eq] at he
  simp only [List.mem_map, List.mem_filter] at he
  obtain ⟨f, ⟨hf, -⟩, rfl⟩ := he
  simp only [serve, listed_run s hs rs', Ans.channel.injEq]
  have hb : f ∈ build s := hf
  simp only [build, List.mem_map] at hf
  obtain ⟨d, hd, rfl⟩ := hf
  have hfind : (build s).find? (fun e => decide (e.profile = tcp) && decide (e.desc.policy = d.policy) && decide (e.desc.mode = d.mode))
      = some ⟨s.url, s.app, tcp, d⟩ := by
    have hloc := Endpoint.local_of_mem s.config d hd
    have h2 : (Endpoint.endpoints s.config).find? (fun e => decide (e.policy = d.policy) && decide (e.mode = d.mode)) = some d := by
      obtain ⟨k, -, hk⟩ := Endpoint.endpoints_eq s.config
      rw [hk] at hd ⊢
      cases ha : s.config.allowNone <;> rw [ha] at hd <;> simp at hd <;>
        rcases hd with rfl | rfl | rfl | rfl | rfl | rfl | rfl | rfl | rfl | hd <;> try (rcases hd with rfl | rfl)
      all_goals first | (subst hd; simp) | simp
    simp only [build, List.find?_map, Function.comp_def, decide_true, Bool.true_and, h2, Option.map_some]
  refine ⟨⟨s.url, s.app, tcp, d⟩, ?_, rfl, rfl⟩
  have hfind' := hfind
  simp only [openChannel, hfind, Option.all_some, hu, decide_false, Bool.false_and, Bool.false_eq_true, if_false]

/-- **C114 (discovery without security, partial).** A server that does not allow channels without security answers
discovery on them all the same: such a channel is marked, and the services of sessions refuse it. Missing: servers
without discovery URLs. -/
theorem C114_discovery_partial (s : Srv) (hs : s.cache = none) (rs : List Req) (ha : s.config.allowNone = false) (u : String)
    (us : List String) (hd : s.app.discoveryUrls = u :: us) :
    (serve (run s rs) (.openChannel .none .none)).1 = .channel (.discoveryOnly u) := by
  have happ : (run s rs).app = s.app := by rcases run_inv s hs rs with h | h <;> rw [h]
  have hf : (build s).find? (fun e => decide (e.profile = tcp) && decide (e.desc.policy = Policy.none) && decide (e.desc.mode = Mode.none)) = none := by
    obtain ⟨k, -, hk⟩ := Endpoint.endpoints_eq s.config
    simp only [build, hk, ha]
    simp
  simp only [serve, listed_run s hs, openChannel, hf, happ, hd]
  simp

example : (serve { demoSrv with config := { demoSrv.config with allowNone := false } } (.openChannel .none .none)).1
    = .channel (.discoveryOnly "opc.tcp://demo:4840") := by decide +kernel

/-- **C114 fails (no discovery URL).** A server that does not allow channels without security, and whose description has
no discovery URLs, ends when a client asks for its endpoints without security, as Dial does. -/
theorem C114_crash_fails (s : Srv) (hs : s.cache = none) (rs : List Req) (ha : s.config.allowNone = false)
    (hd : s.app.discoveryUrls = []) : (serve (run s rs) (.openChannel .none .none)).1 = .channel .panic := by
  have happ : (run s rs).app = s.app := by rcases run_inv s hs rs with h | h <;> rw [h]
  have hf : (build s).find? (fun e => decide (e.profile = tcp) && decide (e.desc.policy = Policy.none) && decide (e.desc.mode = Mode.none)) = none := by
    obtain ⟨k, -, hk⟩ := Endpoint.endpoints_eq s.config
    simp only [build, hk, ha]
    simp
  simp only [serve, listed_run s hs, openChannel, hf, happ, hd]
  simp

/-! ## The lock -/

/-- **C114 fails (the lock of the server).** Somebody asks for the endpoints for the first time, and Close is called
while the list is being made: neither returns, and no other call that needs the lock ever begins, whatever the others
want to do and whatever the schedule. -/
theorem C114_deadlock_fails (count : Nat) (hc : count ≥ 1) (others : List (List Op)) (is : List Nat) :
    sched (start false count ([.endpoints] :: [.write] :: others)) (0 :: 1 :: is) =
      ⟨1, true, false, count, ⟨.building count, []⟩ :: ⟨.announced, []⟩ :: others.map (⟨.idle, ·⟩)⟩ := by
  obtain ⟨n, rfl⟩ : ∃ n, count = n + 1 := ⟨count - 1, by omega⟩
  have h2 : sched (start false (n + 1) ([.endpoints] :: [.write] :: others)) (0 :: 1 :: is) =
      sched ⟨1, true, false, n + 1, ⟨.building (n + 1), []⟩ :: ⟨.announced, []⟩ :: others.map (⟨.idle, ·⟩)⟩ is := rfl
  rw [h2]
  induction is with
  | nil => rfl
  | cons i is ih =>
    have h3 : turn ⟨1, true, false, n + 1, ⟨.building (n + 1), []⟩ :: ⟨.announced, []⟩ :: others.map (⟨.idle, ·⟩)⟩ i =
        ⟨1, true, false, n + 1, ⟨.building (n + 1), []⟩ :: ⟨.announced, []⟩ :: others.map (⟨.idle, ·⟩)⟩ := by
      match i with
      | 0 => rfl
      | 1 => rfl
      | i + 2 =>
        simp only [turn, List.getElem?_cons_succ, List.getElem?_map]
        cases others[i]? with
        | none => rfl
        | some ops =>
          cases ops with
          | nil => rfl
          | cons o ops => cases o <;> rfl
    simp only [sched, List.foldl_cons, h3]
    exact ih rfl

/-- **C114 fails (a race).** Two goroutines may make the list at the same time, both under the lock for reading, and both
store it. -/
theorem C114_race_fails (count : Nat) :
    (sched (start false count [[.endpoints], [.endpoints]]) [0, 1]).threads = [⟨.building count, []⟩, ⟨.building count, []⟩] := rfl

/-- How often a goroutine holds the lock for reading. -/
def holds (t : Thread) : Nat :=
  match t.at_ with
  | .reading | .building _ => 1
  | .nested _ => 2
  | _ => 0

/-- Whether it wants or has it for writing. -/
def writes (t : Thread) : Nat :=
  match t.at_ with
  | .announced | .inside => 1
  | _ => 0

/-- How much is left to do. -/
def weight (count : Nat) (t : Thread) : Nat :=
  t.todo.length * (2 * count + 5) +
  match t.at_ with
  | .idle => 0
  | .reading => 1
  | .building k => 2 * k + 2
  | .nested k => 2 * k + 3
  | .announced => 2
  | .inside => 1

theorem sum_set {α : Type} (f : α → Nat) (l : List α) (i : Nat) (a b : α) (h : l[i]? = some a) :
    ((l.set i b).map f).sum + f a = (l.map f).sum + f b := by
  induction l generalizing i with
  | nil => simp at h
  | cons x l ih =>
    cases i with
    | zero =>
      simp only [List.getElem?_cons_zero, Option.some.injEq] at h
      subst h
      simp only [List.set_cons_zero, List.map_cons, List.sum_cons]
      omega
    | succ i =>
      simp only [List.getElem?_cons_succ] at h
      have := ih i h
      simp only [List.set_cons_succ, List.map_cons, List.sum_cons]
      omega

theorem sum_pos {α : Type} (f : α → Nat) (l : List α) (h : (l.map f).sum > 0) : ∃ a ∈ l, f a > 0 := by
  induction l with
  | nil => simp at h
  | cons x l ih =>
    simp only [List.map_cons, List.sum_cons] at h
    by_cases hx : f x > 0
    · exact ⟨x, by simp, hx⟩
    · obtain ⟨a, ha, hf⟩ := ih (by omega)
      exact ⟨a, by simp [ha], hf⟩

theorem le_sum {α : Type} (f : α → Nat) (l : List α) (a : α) (h : a ∈ l) : f a ≤ (l.map f).sum := by
  induction l with
  | nil => simp at h
  | cons x l ih =>
    simp only [List.map_cons, List.sum_cons]
    rcases List.mem_cons.1 h with rfl | h
    · omega
    · have := ih h
      omega

/-- Either the list is there and nobody makes it, or nobody writes. -/
def Calm (s : Sys) : Prop :=
  (s.built = true ∧ ∀ t ∈ s.threads, ∀ k, t.at_ ≠ .building k ∧ t.at_ ≠ .nested k)
  ∨ (∀ t ∈ s.threads, Op.write ∉ t.todo ∧ writes t = 0)

structure Inv (s : Sys) : Prop where
  readers : s.readers = (s.threads.map holds).sum
  writer : (if s.writer then 1 else 0) = (s.threads.map writes).sum
  calm : Calm s

theorem calm_set (s : Sys) (i : Nat) (t t' : Thread) (h : s.threads[i]? = some t) (r : Nat) (w b : Bool)
    (hc : Calm s) (hb : s.built = true → b = true)
    (h1 : s.built = true → (∀ k, t.at_ ≠ .building k ∧ t.at_ ≠ .nested k) → ∀ k, t'.at_ ≠ .building k ∧ t'.at_ ≠ .nested k)
    (h2 : Op.write ∉ t.todo ∧ writes t = 0 → Op.write ∉ t'.todo ∧ writes t' = 0) :
    Calm { s with readers := r, writer := w, built := b, threads := s.threads.set i t' } := by
  have ht : t ∈ s.threads := List.mem_of_getElem? h
  rcases hc with ⟨hb', hc⟩ | hc
  · refine .inl ⟨hb hb', ?_⟩
    intro u hu
    rcases List.mem_or_eq_of_mem_set hu with hu | rfl
    · exact hc u hu
    · exact h1 hb' (hc t ht)
  · refine .inr ?_
    intro u hu
    rcases List.mem_or_eq_of_mem_set hu with hu | rfl
    · exact hc u hu
    · exact h2 (hc t ht)

theorem inv_move (s s' : Sys) (i : Nat) (t : Thread) (h : s.threads[i]? = some t) (hi : Inv s) (hm : move s i t = some s') :
    Inv s' ∧ s'.count = s.count ∧ ((s'.threads.map (weight s.count)).sum < (s.threads.map (weight s.count)).sum) := by
  obtain ⟨at_, todo⟩ := t
  have ht : (⟨at_, todo⟩ : Thread) ∈ s.threads := List.mem_of_getElem? h
  have hr := hi.readers
  have hw := hi.writer
  have hle := le_sum holds s.threads _ ht
  have hle2 := le_sum writes s.threads _ ht
  have S1 := fun b => sum_set holds s.threads i ⟨at_, todo⟩ b h
  have S2 := fun b => sum_set writes s.threads i ⟨at_, todo⟩ b h
  have S3 := fun b => sum_set (weight s.count) s.threads i ⟨at_, todo⟩ b h
  have mul : ∀ n : Nat, (n + 1) * (2 * s.count + 5) = n * (2 * s.count + 5) + (2 * s.count + 5) := fun n => Nat.succ_mul _ _
  cases at_ with
  | idle =>
    cases todo with
    | nil => simp [move] at hm
    | cons o todo =>
      cases o with
      | read =>
        simp only [move] at hm
        split at hm
        · cases hm
        · cases hm
          refine ⟨⟨?_, ?_, calm_set s i _ _ h _ _ _ hi.calm id (by simp) (by simp +contextual [writes])⟩, rfl, ?_⟩
          · have := S1 ⟨.reading, todo⟩; simp only [holds] at this ⊢; omega
          · have := S2 ⟨.reading, todo⟩; simp only [writes] at this ⊢; omega
          · have := S3 ⟨.reading, todo⟩; simp only [weight, List.length_cons, mul] at this ⊢; omega
      | endpoints =>
        simp only [move] at hm
        split at hm
        · cases hm
        · cases hm
          refine ⟨⟨?_, ?_, calm_set s i _ _ h _ _ _ hi.calm id ?_ ?_⟩, rfl, ?_⟩
          · have := S1 ⟨if s.built then .reading else .building s.count, todo⟩
            cases hb : s.built <;> simp only [hb, holds, Bool.false_eq_true, ↓reduceIte] at this ⊢ <;> omega
          · have := S2 ⟨if s.built then .reading else .building s.count, todo⟩
            cases hb : s.built <;> simp only [hb, writes, Bool.false_eq_true, ↓reduceIte] at this ⊢ <;> omega
          · intro hb; simp [hb]
          · cases hb : s.built <;> simp +contextual [writes]
          · have := S3 ⟨if s.built then .reading else .building s.count, todo⟩
            cases hb : s.built <;> simp only [hb, weight, List.length_cons, mul, Bool.false_eq_true, ↓reduceIte] at this ⊢ <;> omega
      | write =>
        simp only [move] at hm
        split at hm
        · cases hm
        · rename_i hwf
          cases hm
          refine ⟨⟨?_, ?_, calm_set s i _ _ h _ _ _ hi.calm id (by simp) (by simp)⟩, rfl, ?_⟩
          · have := S1 ⟨.announced, todo⟩; simp only [holds] at this ⊢; omega
          · have := S2 ⟨.announced, todo⟩
            simp only [hwf, Bool.false_eq_true, ↓reduceIte] at hw
            simp only [writes, ↓reduceIte] at this ⊢
            omega
          · have := S3 ⟨.announced, todo⟩; simp only [weight, List.length_cons, mul] at this ⊢; omega
  | reading =>
    simp only [move, Option.some.injEq] at hm
    subst hm
    refine ⟨⟨?_, ?_, calm_set s i _ _ h _ _ _ hi.calm id (by simp) (by simp [writes])⟩, rfl, ?_⟩
    · have := S1 ⟨.idle, todo⟩; simp only [holds] at this hle ⊢; omega
    · have := S2 ⟨.idle, todo⟩; simp only [writes] at this ⊢; omega
    · have := S3 ⟨.idle, todo⟩; simp only [weight] at this ⊢; omega
  | building k =>
    cases k with
    | zero =>
      simp only [move, Option.some.injEq] at hm
      subst hm
      refine ⟨⟨?_, ?_, calm_set s i _ _ h _ _ _ hi.calm (fun _ => rfl) (by simp) (by simp [writes])⟩, rfl, ?_⟩
      · have := S1 ⟨.reading, todo⟩; simp only [holds] at this hle ⊢; omega
      · have := S2 ⟨.reading, todo⟩; simp only [writes] at this ⊢; omega
      · have := S3 ⟨.reading, todo⟩; simp only [weight] at this ⊢; omega
    | succ k =>
      simp only [move] at hm
      split at hm
      · cases hm
      · cases hm
        refine ⟨⟨?_, ?_, calm_set s i _ _ h _ _ _ hi.calm id (by intro _ h; exact absurd rfl (h (k + 1)).1) (by simp [writes])⟩, rfl, ?_⟩
        · have := S1 ⟨.nested k, todo⟩; simp only [holds] at this hle ⊢; omega
        · have := S2 ⟨.nested k, todo⟩; simp only [writes] at this ⊢; omega
        · have := S3 ⟨.nested k, todo⟩; simp only [weight] at this ⊢; omega
  | nested k =>
    simp only [move, Option.some.injEq] at hm
    subst hm
    refine ⟨⟨?_, ?_, calm_set s i _ _ h _ _ _ hi.calm id (by intro _ h; exact absurd rfl (h k).2) (by simp [writes])⟩, rfl, ?_⟩
    · have := S1 ⟨.building k, todo⟩; simp only [holds] at this hle ⊢; omega
    · have := S2 ⟨.building k, todo⟩; simp only [writes] at this ⊢; omega
    · have := S3 ⟨.building k, todo⟩; simp only [weight] at this ⊢; omega
  | announced =>
    simp only [move] at hm
    split at hm
    · cases hm
      refine ⟨⟨?_, ?_, calm_set s i _ _ h _ _ _ hi.calm id (by simp) (by simp [writes])⟩, rfl, ?_⟩
      · have := S1 ⟨.inside, todo⟩; simp only [holds] at this hle ⊢; omega
      · have := S2 ⟨.inside, todo⟩; simp only [writes] at this ⊢; omega
      · have := S3 ⟨.inside, todo⟩; simp only [weight] at this ⊢; omega
    · cases hm
  | inside =>
    simp only [move, Option.some.injEq] at hm
    subst hm
    refine ⟨⟨?_, ?_, calm_set s i _ _ h _ _ _ hi.calm id (by simp) (by simp [writes])⟩, rfl, ?_⟩
    · have := S1 ⟨.idle, todo⟩; simp only [holds] at this hle ⊢; omega
    · have := S2 ⟨.idle, todo⟩
      simp only [writes, Bool.false_eq_true, ↓reduceIte] at this hle2 hw ⊢
      split at hw <;> omega
    · have := S3 ⟨.idle, todo⟩; simp only [weight] at this ⊢; omega

/-- Somebody can go on as long as somebody has something to do. -/
theorem progress (s : Sys) (hi : Inv s) (h : ∃ t ∈ s.threads, ¬ Done t) :
    ∃ i t s', s.threads[i]? = some t ∧ move s i t = some s' := by
  obtain ⟨u, hu, hd⟩ := h
  cases hw : s.writer with
  | false =>
    obtain ⟨i, hi'⟩ := List.getElem?_of_mem hu
    have h0 : writes u = 0 := by
      have := le_sum writes s.threads u hu
      have := hi.writer
      simp [hw] at this
      omega
    obtain ⟨at_, todo⟩ := u
    refine ⟨i, ⟨at_, todo⟩, ?_⟩
    cases at_ with
    | idle =>
      cases todo with
      | nil => exact absurd ⟨rfl, rfl⟩ hd
      | cons o todo => cases o <;> exact ⟨_, hi', by simp [move, hw]; rfl⟩
    | reading => exact ⟨_, hi', rfl⟩
    | building k => cases k <;> exact ⟨_, hi', by simp [move, hw]; rfl⟩
    | nested k => exact ⟨_, hi', rfl⟩
    | announced => simp [writes] at h0
    | inside => simp [writes] at h0
  | true =>
    have h1 := hi.writer
    simp only [hw, if_true] at h1
    obtain ⟨v, hv, hv'⟩ := sum_pos writes s.threads (by omega)
    obtain ⟨i, hi'⟩ := List.getElem?_of_mem hv
    obtain ⟨at_, todo⟩ := v
    cases at_ <;> simp only [writes, Nat.lt_irrefl, gt_iff_lt] at hv'
    case announced =>
      by_cases hr : s.readers = 0
      · exact ⟨i, _, _, hi', by simp [move, hr]; rfl⟩
      · rw [hi.readers] at hr
        obtain ⟨x, hx, hx'⟩ := sum_pos holds s.threads (by omega)
        obtain ⟨j, hj⟩ := List.getElem?_of_mem hx
        rcases hi.calm with ⟨-, hc⟩ | hc
        · have := hc x hx
          obtain ⟨at_, todo⟩ := x
          cases at_ with
          | reading => exact ⟨j, _, _, hj, rfl⟩
          | building k => exact absurd rfl (this k).1
          | nested k => exact absurd rfl (this k).2
          | idle => simp [holds] at hx'
          | announced => simp [holds] at hx'
          | inside => simp [holds] at hx'
        · have := (hc _ hv).2
          simp [writes] at this
    case inside => exact ⟨i, _, _, hi', rfl⟩

theorem inv_turn (s : Sys) (i : Nat) (hi : Inv s) : Inv (turn s i) := by
  unfold turn
  cases h : s.threads[i]? with
  | none => exact hi
  | some t =>
    cases hm : move s i t with
    | none => simpa [hm] using hi
    | some s' => simpa [hm] using (inv_move s s' i t h hi hm).1

theorem inv_sched (s : Sys) (is : List Nat) (hi : Inv s) : Inv (sched s is) := by
  induction is using snocInd with
  | nil => exact hi
  | append_singleton is i ih =>
    have : sched s (is ++ [i]) = turn (sched s is) i := by simp [sched]
    rw [this]
    exact inv_turn _ _ ih

theorem completes (s : Sys) (hi : Inv s) : ∃ is, ∀ t ∈ (sched s is).threads, Done t := by
  generalize hn : (s.threads.map (weight s.count)).sum = n
  induction n using Nat.strongRecOn generalizing s with
  | _ n ih =>
    by_cases h : ∃ t ∈ s.threads, ¬ Done t
    · obtain ⟨i, t, s', h1, h2⟩ := progress s hi h
      obtain ⟨h3, h4, h5⟩ := inv_move s s' i t h1 hi h2
      obtain ⟨is, his⟩ := ih _ (by rw [← hn]; rw [← h4] at h5; rw [← h4]; exact h5) s' h3 rfl
      refine ⟨i :: is, ?_⟩
      have : sched s (i :: is) = sched s' is := by simp [sched, turn, h1, h2]
      rw [this]
      exact his
    · refine ⟨[], fun t ht => Classical.byContradiction fun hd => h ⟨t, ht, hd⟩⟩

theorem inv_start (built : Bool) (count : Nat) (programs : List (List Op))
    (h : built = true ∨ ∀ p ∈ programs, Op.write ∉ p) : Inv (start built count programs) := by
  have z : ∀ (f : Thread → Nat), (∀ p, f ⟨.idle, p⟩ = 0) → ∀ ps : List (List Op), ((ps.map (⟨.idle, ·⟩ : List Op → Thread)).map f).sum = 0 := by
    intro f hf ps
    induction ps with
    | nil => rfl
    | cons p ps ih => simp only [List.map_cons, List.sum_cons, hf, ih]
  refine ⟨(z holds (fun _ => rfl) programs).symm, (z writes (fun _ => rfl) programs).symm, ?_⟩
  rcases h with h | h
  · refine .inl ⟨h, ?_⟩
    intro t ht k
    simp only [start, List.mem_map] at ht
    obtain ⟨p, -, rfl⟩ := ht
    simp
  · refine .inr ?_
    intro t ht
    simp only [start, List.mem_map] at ht
    obtain ⟨p, hp, rfl⟩ := ht
    exact ⟨h p hp, rfl⟩

/-- **C114 (no standstill, partial).** If the endpoints were asked for once before, or as long as nobody calls
ListenAndServe or Close: whatever the goroutines call and whatever has happened so far, somebody can go on as long as
a call has not returned, and all calls can return. Missing: the first request during Close. -/
theorem C114_progress_partial (built : Bool) (count : Nat) (programs : List (List Op))
    (h : built = true ∨ ∀ p ∈ programs, Op.write ∉ p) (is : List Nat) :
    ((∃ t ∈ (sched (start built count programs) is).threads, ¬ Done t) →
      ∃ i, turn (sched (start built count programs) is) i ≠ sched (start built count programs) is) ∧
    ∃ js, ∀ t ∈ (sched (start built count programs) (is ++ js)).threads, Done t := by
  have hi := inv_sched _ is (inv_start built count programs h)
  constructor
  · intro hu
    obtain ⟨i, t, s', h1, h2⟩ := progress _ hi hu
    refine ⟨i, ?_⟩
    have h3 := (inv_move _ s' i t h1 hi h2).2
    simp only [turn, h1, h2, Option.getD_some]
    intro heq
    rw [heq] at h3
    omega
  · obtain ⟨js, hjs⟩ := completes _ hi
    refine ⟨js, ?_⟩
    simpa [sched, List.foldl_append] using hjs

example : (sched (start true 11 [[.endpoints, .read], [.write], [.endpoints]]) [0, 2, 1, 0, 0, 1, 2, 1, 1, 0, 0]).threads
    = [⟨.idle, []⟩, ⟨.idle, []⟩, ⟨.idle, []⟩] := by decide

end Opcua.Discovery
