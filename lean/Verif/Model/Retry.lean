/-!
# Retrying

Models `common/utils.py:13-33` `simple_retry`.  A function that may raise, in a world `σ`, is
`σ → σ × Except ε α`; waiting between the calls is left out.
-/
namespace Jq
variable {σ ε α : Type}

/-- `common/utils.py:18-31` `_retry`: `n` retries are left (`max_attempts - attempts`); `accept` is `on_exception`
(always true when it is not given). -/
def retry (accept : ε → Bool) (f : σ → σ × Except ε α) : Nat → σ → σ × Except ε α
  | n, s =>
    match f s with
    | (s, .ok a) => (s, .ok a)
    | (s, .error e) =>
      if !accept e then (s, .error e)
      else match n with
        | 0 => (s, .error e)
        | n + 1 => retry accept f n s

/-- `simple_retry(on_exception, max_attempts)(func)`; a negative `max_attempts` is as zero. -/
def simpleRetry (accept : ε → Bool) (maxAttempts : Int) (f : σ → σ × Except ε α) : σ → σ × Except ε α :=
  retry accept f maxAttempts.toNat

/-- `trade_gate.py:549-550`: every `setup` of the trade gate wraps `_read_csv` once more, with the `max_attempts` of that call's options
(the last call first).  Simplified: `on_exception` is not given. -/
def wrapAgain (f : σ → σ × Except ε α) : List Int → σ → σ × Except ε α
  | [] => f
  | m :: ms => simpleRetry (fun _ => true) m (wrapAgain f ms)

end Jq
