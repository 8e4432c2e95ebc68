import Verif.Token.Model
import Verif.Kv.Model

/-!
# When a call to the test token or to the key-value store is accepted
-/

namespace Verif.Token

open Verif

/-- The account is registered. -/
def State.holds (s : State) (a : AccountId) : Prop := s.storage_balance_of a ≠ none

/-- The conditions under which each method of the token is accepted. -/
def MayCall (s : State) (c : Ctx) : Call → Prop
  | .set_owner_id _ => c.predecessor = s.get_owner_id
  | .add_minter a => c.deposit = 1 ∧ c.predecessor = s.get_owner_id ∧ a ∉ s.get_minters
  | .remove_minter a => c.deposit = 1 ∧ c.predecessor = s.get_owner_id ∧ a ∈ s.get_minters
  | .assert_minter a => c.deposit = 0 ∧ a ∈ s.get_minters
  | .ft_mint n => c.deposit = 1 ∧ c.predecessor ∈ s.get_minters ∧ s.holds c.predecessor ∧
    s.ft_total_supply + n ≤ U128_MAX
  | .ft_burn n => c.deposit = 1 ∧ s.holds c.predecessor ∧ n ≤ s.ft_balance_of c.predecessor
  | .ft_transfer r n | .ft_transfer_call r n _ => c.deposit = 1 ∧ c.predecessor ≠ r ∧ 0 < n ∧
    n ≤ s.ft_balance_of c.predecessor ∧ s.holds r
  | .ft_resolve_transfer _ _ n => c.deposit = 0 ∧ c.predecessor = c.current ∧ n ≤ U128_MAX
  | .storage_deposit a _ => s.holds (a.getD c.predecessor) ∨ s.storage_balance_bounds.1 ≤ c.deposit
  | .storage_withdraw n => c.deposit = 1 ∧ s.holds c.predecessor ∧ n.getD 0 = 0
  | .storage_unregister f => c.deposit = 1 ∧ (s.ft_balance_of c.predecessor = 0 ∨ f = some true)

end Verif.Token

namespace Verif.Kv

open Verif

/-- The conditions under which each method of the store is accepted. -/
def MayCall (s : State) (c : Ctx) : Call → Prop
  | .set_operator_id _ | .set_owner_id _ => c.deposit = 1 ∧ c.predecessor = s.get_owner_id
  | .set_value .. | .set_values _ | .remove_value _ => c.deposit = 0 ∧ c.predecessor = s.get_operator_id

end Verif.Kv
