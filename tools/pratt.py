import subprocess
def factor(n):
    o=subprocess.run(['factor',str(n)],capture_output=True,text=True).stdout.split(':')[1].split()
    d={}
    for x in o: d[int(x)]=d.get(int(x),0)+1
    return d
known={205115282021455665897114700593932402728804164701536103180137503955397371-1:{2:1,3:1,5:1,29:2,31:1,7723:1,132896956044521568488119:1,255515944373312847190720520512484175977:1},
 }
p=2**256-2**32-977
known[p-1]={2:1,3:1,7:1,13441:1,205115282021455665897114700593932402728804164701536103180137503955397371:1}
N=0xFFFFFFFFFFFFFFFFFFFFFFFFFFFFFFFEBAAEDCE6AF48A03BBFD25E8CD0364141
known[N-1]={2:6,3:1,149:1,631:1,107361793816595537:1,174723607534414371449:1,341948486974166000522343609283189:1}
u=4965661367192848881
P=36*u**4+36*u**3+24*u**2+6*u+1
O=36*u**4+36*u**3+18*u**2+6*u+1
P=21888242871839275222246405745257275088696311157297823662689037894645226208583
O=21888242871839275222246405745257275088548364400416034343698204186575808495617
known[P-1]={2:1,3:1}
def add(d,n):
    for k,v in factor(n).items(): d[k]=d.get(k,0)+v
known[P-1]={2:1,3:1}; add(known[P-1],u); add(known[P-1],6*u**3+6*u**2+4*u+1)
known[O-1]={2:28,3:2,13:1,29:1,983:1,11003:1,237073:1,405928799:1,1670836401704629:1,13818364434197438864469338081:1}
for k,d in known.items():
    x=1
    for a,b in d.items(): x*=a**b
    assert x==k
out=[];done={}
def go(p):
    if p in done: return
    done[p]=1
    name=f"prime_{p}"
    if p<2**17:
        out.append(f"theorem {name} : Nat.Prime {p} := by norm_num")
        return
    d=known.get(p-1) or factor(p-1)
    for q in d: go(q)
    a=2
    while not(pow(a,p-1,p)==1 and all(pow(a,(p-1)//q,p)!=1 for q in d)): a+=1
    fs=", ".join(f"({q}, {e})" for q,e in d.items())
    prs="".join(f"⟨prime_{q}, " for q in d)+"trivial"+"⟩"*len(d)
    out.append(f"theorem {name} : Nat.Prime {p} :=\n  pratt {p} {a} [{fs}]\n    (by decide +kernel) (by simp only [List.forall_mem_cons]; exact {prs[:-0] if 0 else prs.replace('trivial','by simp')})")
for q in (p,N,P,O): go(q)
hdr='''import Mathlib.NumberTheory.LucasPrimality
import Mathlib.Tactic.NormNum.Prime
import Mathlib.Algebra.BigOperators.Group.List.Basic
import Mathlib.Algebra.BigOperators.Associated

/-!
# Primality of the four field and group orders

Pratt certificates (generated by `tools/pratt.py`), checked by kernel evaluation of a
square-and-multiply exponentiation.
-/

namespace Verif

/-- Square-and-multiply modulo `m`: `acc * a^e mod m` for `e < 2^fuel`. -/
def powMod (m : Nat) : Nat → Nat → Nat → Nat → Nat
  | 0, _, _, acc => acc
  | fuel + 1, a, e, acc =>
    if e = 0 then acc
    else powMod m fuel (a * a % m) (e / 2) (if e % 2 = 1 then acc * a % m else acc)

theorem powMod_spec (m fuel a e acc : Nat) (he : e < 2 ^ fuel) :
    (powMod m fuel a e acc : ZMod m) = (acc : ZMod m) * (a : ZMod m) ^ e := by
  induction fuel generalizing a e acc with
  | zero =>
    have : e = 0 := by simpa using he
    subst this; simp [powMod]
  | succ fuel ih =>
    rw [powMod]
    split
    · rename_i h; subst h; simp
    · rw [ih _ _ _ (by rw [pow_succ] at he; omega)]
      have hsq : ((a * a % m : Nat) : ZMod m) = (a : ZMod m) ^ 2 := by
        rw [ZMod.natCast_mod]; push_cast; ring
      rw [hsq, ← pow_mul]
      split
      · rename_i h
        rw [ZMod.natCast_mod]; push_cast
        have : e = 2 * (e / 2) + 1 := by omega
        conv_rhs => rw [this, pow_succ]
        ring
      · have : e = 2 * (e / 2) := by omega
        conv_rhs => rw [this]

/-- The checks of a Pratt certificate with base `a` for `p`, given the factorisation of `p-1`. -/
def prattCheck (p a : Nat) (fs : List (Nat × Nat)) : Bool :=
  decide (1 < p) && decide (p - 1 < 2 ^ 256) &&
  decide ((fs.map (fun f => f.1 ^ f.2)).prod = p - 1) &&
  decide (powMod p 256 a (p - 1) 1 % p = 1) &&
  fs.all (fun f => decide (powMod p 256 a ((p - 1) / f.1) 1 % p ≠ 1))

theorem pratt (p a : Nat) (fs : List (Nat × Nat)) (hc : prattCheck p a fs = true)
    (hfs : ∀ f ∈ fs, f.1.Prime) : p.Prime := by
  simp only [prattCheck, Bool.and_eq_true, decide_eq_true_eq, List.all_eq_true] at hc
  obtain ⟨⟨⟨⟨h1, hlt⟩, hprod⟩, hpow⟩, hall⟩ := hc
  have conv : ∀ e, e < 2 ^ 256 → ((a : ZMod p) ^ e = 1 ↔ powMod p 256 a e 1 % p = 1) := by
    intro e he
    have := powMod_spec p 256 a e 1 he
    rw [Nat.cast_one, one_mul] at this
    rw [← this, ← Nat.cast_one (R := ZMod p), ZMod.natCast_eq_natCast_iff, Nat.ModEq,
      Nat.mod_eq_of_lt h1]
  refine lucas_primality p (a : ZMod p) ((conv _ hlt).2 hpow) ?_
  intro q hq hqd
  rw [← hprod] at hqd
  obtain ⟨x, hx, hqx⟩ := (Prime.dvd_prod_iff (Nat.prime_iff.1 hq)).1 hqd
  obtain ⟨f, hf, rfl⟩ := List.mem_map.1 hx
  have hqf : q = f.1 :=
    (Nat.prime_dvd_prime_iff_eq hq (hfs f hf)).1 (hq.dvd_of_dvd_pow hqx)
  rw [hqf, Ne, conv _ (lt_of_le_of_lt (Nat.div_le_self _ _) hlt)]
  exact hall f hf

'''
open('/verif/lean/Verif/Lemmas/Primes.lean','w').write(hdr+"\n\n".join(out)+"\n\nend Verif\n")
print(len(out))
