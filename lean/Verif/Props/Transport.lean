import Verif.Model.Transport
import Verif.Props.Http
import Verif.Props.Target
import Verif.Props.AddOn
/-!
# C99: the transport settings reach every request
-/

namespace Verif.Spec.Transport
open Verif

/-- The settings of the handler: the arguments given for all HTTP requests or, without any, whether certificates
are verified. -/
def Setting (verifySsl : Val) (given : Obj) (k : String) : Option Val :=
  if given = [] then (if k = "verify" then some verifySsl else none) else Dict.get? given k

/-- The arguments of a request: the data and headers are its own, everything else is as set for the handler, and
redirects are not followed unless it says so. -/
def Arguments (data headers : Val) (settings : String → Option Val) (args : Obj) : Prop :=
  ∀ k, Dict.get? args k =
    if k = "data" then some data
    else if k = "headers" then some headers
    else match settings k with
      | some v => some v
      | none => if k = "allow_redirects" then some (.bool false) else none

end Verif.Spec.Transport

namespace Verif.Props
open Verif Verif.Transport Spec.Transport

theorem call_lib (e : Http.Ext) (url method : String) (kwargs : Obj) (l : Http.Lib) :
    (Http.call e url method kwargs l).2.requestArgs = l.requestArgs ∧
    (Http.call e url method kwargs l).2.sent = l.sent ++ [(method, url, Dict.update l.requestArgs kwargs)] := by
  unfold Http.call Http.arguments
  simp only
  split
  · exact ⟨rfl, rfl⟩
  · unfold Http.receive
    split
    · next h => split at h <;> (try split at h) <;> cases h <;> exact ⟨rfl, rfl⟩
    · next h => split at h <;> (try split at h) <;> cases h <;> exact ⟨rfl, rfl⟩

theorem net_append (e : Http.Ext) (l l' : List Sent) (n : Net) : run e (l ++ l') n = run e l' (run e l n) := by
  simp [run, List.foldl_append]

theorem step_net (e : Http.Ext) (s : Sent) (n : Net) :
    (step e s n).2.lib.requestArgs = n.lib.requestArgs ∧
    (step e s n).2.lib.sent = n.lib.sent ++
      (if isPush s then [] else [(s.method, s.url, Dict.update n.lib.requestArgs (kwargsOf s))]) ∧
    (step e s n).2.direct = n.direct ++ (if isPush s then [("GET", s.url, [("data", dataOf s.body)])] else []) := by
  unfold step
  cases isPush s with
  | true => simp
  | false =>
    obtain ⟨h1, h2⟩ := call_lib e s.url s.method (kwargsOf s) n.lib
    simp [h1, h2]

theorem run_net (e : Http.Ext) (log : List Sent) (n : Net) :
    (run e log n).lib.requestArgs = n.lib.requestArgs ∧
    (run e log n).lib.sent = n.lib.sent ++ (log.filter (fun s => !isPush s)).map
      (fun s => (s.method, s.url, Dict.update n.lib.requestArgs (kwargsOf s))) ∧
    (run e log n).direct = n.direct ++ (log.filter isPush).map
      (fun s => ("GET", s.url, [("data", dataOf s.body)])) := by
  induction log generalizing n with
  | nil => simp [run]
  | cons s log ih =>
    obtain ⟨h1, h2, h3⟩ := step_net e s n
    obtain ⟨i1, i2, i3⟩ := ih (step e s n).2
    have hr : run e (s :: log) n = run e log (step e s n).2 := rfl
    rw [hr]
    refine ⟨i1.trans h1, ?_, ?_⟩
    · rw [i2, h2, h1]
      cases hp : isPush s <;> simp [hp]
    · rw [i3, h3]
      cases hp : isPush s <;> simp [hp]

theorem nodup_handlerParams {v : Val} {given : Obj} (h : (Dict.keys given).Nodup) :
    (Dict.keys (handlerParams v given)).Nodup := by
  unfold handlerParams
  split
  · simp [Dict.keys]
  · exact h

theorem get?_handlerParams (v : Val) (given : Obj) (k : String) :
    Dict.get? (handlerParams v given) k = Setting v given k := by
  unfold handlerParams Setting
  cases given with
  | nil =>
    simp only [List.isEmpty_nil, if_true, Dict.get?_cons]
    by_cases h : k = "verify"
    · simp [h]
    · simp [h, Ne.symm h, Dict.get?]
  | cons p l => simp

theorem arguments_of (v : Val) (given : Obj) (hn : (Dict.keys given).Nodup) (s : Sent) :
    Arguments (dataOf s.body) (headersOf s.headers) (Setting v given)
      (Dict.update (Http.Lib.new (handlerParams v given)).requestArgs (kwargsOf s)) := by
  intro k
  rw [Dict.get?_update_nodup _ (by simp [kwargsOf, Dict.keys])]
  show (Dict.get? (kwargsOf s) k).or (Dict.get? (Dict.update [("allow_redirects", .bool false)] (handlerParams v given)) k) = _
  rw [Dict.get?_update_nodup _ (nodup_handlerParams hn), get?_handlerParams]
  by_cases h1 : k = "data"
  · subst h1; simp [kwargsOf, Dict.get?]
  by_cases h2 : k = "headers"
  · subst h2; simp [kwargsOf, Dict.get?]
  have : Dict.get? (kwargsOf s) k = none := by
    simp [kwargsOf, Dict.get?, h1, h2, Ne.symm h1, Ne.symm h2]
  rw [this, if_neg h1, if_neg h2]
  cases Setting v given k with
  | some w => rfl
  | none =>
    by_cases h3 : k = "allow_redirects"
    · subst h3; rfl
    · simp [Dict.get?, h3, Ne.symm h3]

/-- **C99** (what holds).  Whatever a client of the handler sends, in any history, is sent as it is: every request
but the pushed ones goes out once, in order, with its method, URL, body and headers, and with the settings of the
handler, whatever the answers and cookies received before. -/
theorem C99_settings_partial (e : Http.Ext) (verifySsl : Val) (given : Obj) (hn : (Dict.keys given).Nodup) (log : List Sent) :
    ∃ args : Sent → Obj,
      (run e log { lib := clientLib none (handlerParams verifySsl given) }).lib.sent =
        (log.filter (fun s => !isPush s)).map (fun s => (s.method, s.url, args s)) ∧
      ∀ s, Arguments (dataOf s.body) (headersOf s.headers) (Setting verifySsl given) (args s) := by
  refine ⟨_, ?_, arguments_of verifySsl given hn⟩
  rw [(run_net e log _).2.1]
  rfl

/-- **C99** (certificates).  Without settings of its own the handler has every request but the pushed ones verify the
certificate of the provider, unless it was made with `verify_ssl=False`; and no such request follows redirects. -/
theorem C99_verified_partial (e : Http.Ext) (verifySsl : Val) (log : List Sent) :
    ∀ r ∈ (run e log { lib := clientLib none (handlerParams verifySsl []) }).lib.sent,
      Dict.get? r.2.2 "verify" = some verifySsl ∧ Dict.get? r.2.2 "allow_redirects" = some (.bool false) := by
  obtain ⟨args, h1, h2⟩ := C99_settings_partial e verifySsl [] (by simp [Dict.keys]) log
  rw [h1]
  intro r hr
  obtain ⟨s, _, rfl⟩ := List.mem_map.1 hr
  refine ⟨?_, ?_⟩
  · rw [h2 s "verify"]; simp [Setting]
  · rw [h2 s "allow_redirects"]; simp [Setting]

/-- **C99** (the answers).  A client that talks over this network gets for each of its requests but the pushed ones
what the network answers to that request with those settings; a cookie that cannot be read is an exception. -/
theorem C99_answers_partial (x : Verif.Ext) (e : Http.Ext) (verifySsl : Val) (given : Obj) (hn : (Dict.keys given).Nodup)
    (log : List Sent) (s : Sent) (hs : isPush s = false) :
    ∃ args, Arguments (dataOf s.body) (headersOf s.headers) (Setting verifySsl given) args ∧
      match e.request s.method s.url args with
      | .error err => (online x e { lib := clientLib none (handlerParams verifySsl given) }).http log s = .error err
      | .ok r => (online x e { lib := clientLib none (handlerParams verifySsl given) }).http log s = .ok r ∨
          (online x e { lib := clientLib none (handlerParams verifySsl given) }).http log s
            = .error (.external "NonFatalException") := by
  refine ⟨_, arguments_of verifySsl given hn s, ?_⟩
  have h0 := (run_net e log { lib := clientLib none (handlerParams verifySsl given) }).1
  simp only [online, answer, step, hs, Bool.false_eq_true, if_false]
  generalize run e log _ = n at *
  replace h0 : n.lib.requestArgs = (Http.Lib.new (handlerParams verifySsl given)).requestArgs := h0
  obtain ⟨args, h1, h2⟩ := C62_answer e s.url s.method (kwargsOf s) n.lib
  rw [(call_lib e s.url s.method (kwargsOf s) n.lib).2] at h1
  have h1 := List.append_cancel_left h1
  simp only [List.cons.injEq, Prod.mk.injEq, true_and, and_true] at h1
  rw [← h1, h0] at h2
  split at h2
  · next err he => rw [he]; exact h2.1
  · next r hr =>
    rw [hr]
    rcases h2 with h2 | h2
    · exact .inl h2.1
    · exact .inr h2.1

/-- What a client makes for a service is no push, as those are recognised here: requests other than POST have no body. -/
theorem C99_own_requests (x : Verif.Ext) (srv : Srv) (hs : ¬ Special srv) (args : Obj) (o : Service.CallOpts) (kwargs : Obj)
    (c c' : Client) (info : Service.ReqInfo) (h : Service.getRequestParameters x srv args o kwargs c = (.ok info, c')) :
    isPush (Service.sentFor srv info) = false := by
  obtain ⟨u, _, _, hc⟩ := C92_destination x srv hs args o kwargs c c' info h
  unfold isPush
  by_cases hm : (Service.sentFor srv info).method = "GET"
  · rw [hc.2.2 (by rw [hm]; decide)]; simp
  · simp [hm]

/-- **C99** is violated by pushed authorization requests: they go past the HTTP library, with none of the settings -
not the certificate of the client, not the certificate authorities, and redirects are followed as the requests
library does. -/
theorem C99_push_violated (e : Http.Ext) (verifySsl : Val) (given : Obj) (log : List Sent) :
    ∀ s ∈ log, isPush s = true →
      ∃ r ∈ (run e log { lib := clientLib none (handlerParams verifySsl given) }).direct,
        r.1 = "GET" ∧ r.2.1 = s.url ∧ ∀ k, k ≠ "data" → Dict.get? r.2.2 k = none := by
  intro s hs hp
  rw [(run_net e log _).2.2]
  refine ⟨_, List.mem_append_right _ (List.mem_map.2 ⟨s, List.mem_filter.2 ⟨hs, hp⟩, rfl⟩), rfl, rfl, ?_⟩
  intro k hk
  simp [Dict.get?, hk, Ne.symm hk]

/-! ## Settings from a configuration -/

/-- **C99** (`get_http_params`).  Certificates are verified as the configuration says under `verify`, else under
`verify_ssl`, and else they are; the client certificate is used with its key if there is one; nothing else is set. -/
theorem C99_http_params (config : Obj) :
    (∀ v, Dict.get? config "verify" = some v → v ≠ .null → Dict.get? (Util.getHttpParams config) "verify" = some v) ∧
    ((Dict.get? config "verify" = none ∨ Dict.get? config "verify" = some .null) →
      (∀ v, Dict.get? config "verify_ssl" = some v → Dict.get? (Util.getHttpParams config) "verify" = some v) ∧
      (Dict.get? config "verify_ssl" = none → Dict.get? (Util.getHttpParams config) "verify" = some (.bool true))) ∧
    (∀ c, Dict.get? config "client_cert" = some c → c.truthy = true →
      (∀ k, Dict.get? config "client_key" = some k → k.truthy = true →
        Dict.get? (Util.getHttpParams config) "cert" = some (.list [c, k])) ∧
      ((∀ k, Dict.get? config "client_key" = some k → k.truthy = false) →
        Dict.get? (Util.getHttpParams config) "cert" = some c)) ∧
    ((∀ c, Dict.get? config "client_cert" = some c → c.truthy = false) →
      Dict.get? (Util.getHttpParams config) "cert" = none) ∧
    (∀ k, k ≠ "verify" → k ≠ "cert" → Dict.get? (Util.getHttpParams config) k = none) := by
  have key : ∃ ver, Util.getHttpParams config = ("verify", ver) :: (match Dict.get? config "client_cert" with
      | some c => if c.truthy then (match Dict.get? config "client_key" with
          | some k => if k.truthy then [("cert", .list [c, k])] else [("cert", c)]
          | none => [("cert", c)]) else []
      | none => []) ∧
      ver = (match Dict.get? config "verify" with
        | none => (Dict.get? config "verify_ssl").getD (.bool true)
        | some .null => (Dict.get? config "verify_ssl").getD (.bool true)
        | some v => v) := by
    refine ⟨_, ?_, rfl⟩
    unfold Util.getHttpParams
    simp only
    cases Dict.get? config "client_cert" with
    | none => rfl
    | some c =>
      cases hc : c.truthy with
      | false => simp [hc] <;> rfl
      | true =>
        cases Dict.get? config "client_key" with
        | none => simp [hc] <;> rfl
        | some k => cases hk : k.truthy <;> simp [hc, hk] <;> rfl
  obtain ⟨ver, hp, hv⟩ := key
  rw [hp]
  refine ⟨?_, ?_, ?_, ?_, ?_⟩
  · intro v h hne
    rw [h] at hv
    rw [Dict.get?_cons, if_pos rfl, hv]
    cases v <;> simp at hne ⊢
  · intro h
    have : ver = (Dict.get? config "verify_ssl").getD (.bool true) := by
      rcases h with h | h <;> rw [h] at hv <;> exact hv
    rw [Dict.get?_cons, if_pos rfl, this]
    refine ⟨fun v h => by rw [h]; rfl, fun h => by rw [h]; rfl⟩
  · intro c hc ht
    rw [Dict.get?_cons, if_neg (by decide), hc]
    simp only [ht, if_true]
    refine ⟨fun k hk hkt => ?_, fun hk => ?_⟩
    · rw [hk]; simp [hkt, Dict.get?]
    · cases hk' : Dict.get? config "client_key" with
      | none => simp [Dict.get?]
      | some k => simp [hk k hk', Dict.get?]
  · intro hc
    rw [Dict.get?_cons, if_neg (by decide)]
    cases hc' : Dict.get? config "client_cert" with
    | none => rfl
    | some c => simp [hc c hc', Dict.get?]
  · intro k h1 h2
    rw [Dict.get?_cons, if_neg (Ne.symm h1)]
    split
    · split
      · split
        · split <;> simp [Dict.get?, Ne.symm h2]
        · simp [Dict.get?, Ne.symm h2]
      · rfl
    · rfl

/-! ## Non-vacuity -/

/-- Who answers at an URL of the provider of `World`. -/
def serverOf (u : String) : Srv :=
  if u = "https://op.example/token" then .accesstoken
  else if u = "https://op.example/reg" then .registration
  else if u = "https://op.example/.well-known/openid-configuration" then .providerInfo
  else .authorization

/-- A network that answers as the provider of `World` does, as long as the certificate is checked against the given
authorities and the client shows its own. -/
def strictNet : Http.Ext where
  request := fun m u args =>
    if Dict.get? args "verify" = some (.str "/etc/ca.pem") ∧ Dict.get? args "cert" = some (.str "/etc/client.pem") then
      .ok (World.answer { srv := serverOf u, url := u, method := m })
    else .error (.external "SSLError")
  parse := fun _ => .ok []
  time := fun _ => none

/-- The settings of the handler. -/
def strictSettings : Obj := [("verify", .str "/etc/ca.pem"), ("cert", .str "/etc/client.pem")]

/-- Two requests and a push. -/
def mixedLog : List Sent :=
  [{ srv := .providerInfo, url := "https://op.example/.well-known/openid-configuration" },
   { srv := .authorization, url := "https://op.example/par", body := some (.text "a=b") },
   { srv := .accesstoken, url := "https://op.example/token", method := "POST", body := some (.text "code=c"),
     headers := [("Content-Type", "application/x-www-form-urlencoded")] }]

/-- Non-vacuity of C99: the requests have the settings and are answered; the push has not and is refused. -/
example :
    (run strictNet mixedLog { lib := clientLib none (handlerParams (.bool true) strictSettings) }).lib.sent =
      [("GET", "https://op.example/.well-known/openid-configuration",
        [("allow_redirects", .bool false), ("verify", .str "/etc/ca.pem"), ("cert", .str "/etc/client.pem"),
         ("data", .null), ("headers", .null)]),
       ("POST", "https://op.example/token",
        [("allow_redirects", .bool false), ("verify", .str "/etc/ca.pem"), ("cert", .str "/etc/client.pem"),
         ("data", .str "code=c"), ("headers", .obj [("Content-Type", .str "application/x-www-form-urlencoded")])])] ∧
    (run strictNet mixedLog { lib := clientLib none (handlerParams (.bool true) strictSettings) }).direct =
      [("GET", "https://op.example/par", [("data", .str "a=b")])] ∧
    (mixedLog.map isPush = [false, true, false]) ∧
    ((mixedLog.map (fun s => (answer strictNet { lib := clientLib none (handlerParams (.bool true) strictSettings) } [] s).isOk))
      = [true, false, true]) := by
  refine ⟨by decide +kernel, by decide +kernel, by decide, by decide +kernel⟩

set_option maxRecDepth 20000 in
/-- A login begins over this network; with pushed requests it cannot. -/
example :
    (Handler.begin_ (online (World.ext 1000 World.s1 "n1" "") strictNet
        { lib := clientLib none (handlerParams (.bool true) strictSettings) })
      "https://op.example" "" [] [] World.handler).1.isOk = true ∧
    (Handler.begin_ (online (World.ext 1000 World.s1 "n1" "") strictNet
        { lib := clientLib none (handlerParams (.bool true) strictSettings) })
      "https://op.example" "" [] [] (parHandler "strict" "urlencoded")).1.isOk = false := by
  refine ⟨by decide +kernel, by decide +kernel⟩

end Verif.Props
