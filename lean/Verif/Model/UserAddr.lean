import Verif.Model.Hd

/-!
Conveniences of the wallet class for addresses of users and random wallets, monero_glue/misc/bip/bip32.py 274-283 and 772-791.
-/

namespace Verif.Hd
open Verif

/-- bip32.py 274-283 `create_new_address_for_user`. -/
def Wallet.newAddressForUser (hm : Bytes → Bytes → Bytes) (h160 : Bytes → Bytes) (w : Wallet) (user : Int) : Option Wallet :=
  if user < 0 ∨ user > 0x80000000 then none else w.getChild hm h160 user (some false) false

/-- bip32.py 772-791 `new_random_wallet`; `rnd` are the 64 random bytes. Adding a text (789-790) to bytes raises TypeError. -/
def newRandomWallet (hm : Bytes → Bytes → Bytes) (rnd : Bytes) (userEntropy : Option (List Char)) (net : Network) : Option Wallet :=
  match userEntropy with
  | none | some [] => fromMasterSecret hm rnd net false
  | some (_ :: _) => none

end Verif.Hd
