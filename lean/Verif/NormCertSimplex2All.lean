import Verif.NormCheckLemmas
import Verif.NormCertSimplex2P0
/-! Generated by tools/normcert/gen.py: a certificate for the checker `Verif.NormCheck`. -/
namespace FastNoise.NormCheck.Simplex2
open FastNoise.RangeCheck (Tree)

def tree : Tree := (.cut 0 (.cut 1 (.cut 0 t0 (.cut 1 (.cut 0 t1 (.cut 1 (.cut 0 t2 (.cut 1 (.cut 0 t3 (.cut 1 (.cut 0 t4 (.cut 1 (.cut 0 (.cut 1 t5 t6) (.cut 1 (.cut 0 t7 t8) t9)) t10)) t11)) t12)) t13)) (.cut 0 t14 (.cut 1 t15 (.cut 0 t16 (.cut 1 t17 (.cut 0 t18 (.cut 1 t19 (.cut 0 (.cut 1 (.cut 0 t20 (.cut 1 t21 t22)) t23) (.cut 1 t24 (.cut 0 (.cut 1 (.cut 0 t25 (.cut 1 t26 t27)) t28) (.cut 1 t29 (.cut 0 (.cut 1 t30 t31) (.cut 1 t32 t33)))))))))))))) t34) (.cut 1 (.cut 0 (.cut 1 (.cut 0 (.cut 1 (.cut 0 (.cut 1 (.cut 0 (.cut 1 (.cut 0 (.cut 1 (.cut 0 (.cut 1 (.cut 0 t35 t36) t37) (.cut 1 t38 t39)) t40) (.cut 1 t41 t42)) t43) t44) t45) t46) t47) t48) t49) t50) t51))
theorem checked : check par tree [8388608, 8388608] [8388608, 8388608] st = true := (check_cut (c1 := [4194304, 8388608]) (c2 := [12582912, 8388608]) (h := [4194304, 8388608]) (fun _ => rfl) (check_cut (c1 := [4194304, 4194304]) (c2 := [4194304, 12582912]) (h := [4194304, 4194304]) (fun _ => rfl) (check_cut (c1 := [2097152, 4194304]) (c2 := [6291456, 4194304]) (h := [2097152, 4194304]) (fun _ => rfl) h0 (check_cut (c1 := [6291456, 2097152]) (c2 := [6291456, 6291456]) (h := [2097152, 2097152]) (fun _ => rfl) (check_cut (c1 := [5242880, 2097152]) (c2 := [7340032, 2097152]) (h := [1048576, 2097152]) (fun _ => rfl) h1 (check_cut (c1 := [7340032, 1048576]) (c2 := [7340032, 3145728]) (h := [1048576, 1048576]) (fun _ => rfl) (check_cut (c1 := [6815744, 1048576]) (c2 := [7864320, 1048576]) (h := [524288, 1048576]) (fun _ => rfl) h2 (check_cut (c1 := [7864320, 524288]) (c2 := [7864320, 1572864]) (h := [524288, 524288]) (fun _ => rfl) (check_cut (c1 := [7602176, 524288]) (c2 := [8126464, 524288]) (h := [262144, 524288]) (fun _ => rfl) h3 (check_cut (c1 := [8126464, 262144]) (c2 := [8126464, 786432]) (h := [262144, 262144]) (fun _ => rfl) (check_cut (c1 := [7995392, 262144]) (c2 := [8257536, 262144]) (h := [131072, 262144]) (fun _ => rfl) h4 (check_cut (c1 := [8257536, 131072]) (c2 := [8257536, 393216]) (h := [131072, 131072]) (fun _ => rfl) (check_cut (c1 := [8192000, 131072]) (c2 := [8323072, 131072]) (h := [65536, 131072]) (fun _ => rfl) (check_cut (c1 := [8192000, 65536]) (c2 := [8192000, 196608]) (h := [65536, 65536]) (fun _ => rfl) h5 h6) (check_cut (c1 := [8323072, 65536]) (c2 := [8323072, 196608]) (h := [65536, 65536]) (fun _ => rfl) (check_cut (c1 := [8290304, 65536]) (c2 := [8355840, 65536]) (h := [32768, 65536]) (fun _ => rfl) h7 h8) h9)) h10)) h11)) h12)) h13)) (check_cut (c1 := [5242880, 6291456]) (c2 := [7340032, 6291456]) (h := [1048576, 2097152]) (fun _ => rfl) h14 (check_cut (c1 := [7340032, 5242880]) (c2 := [7340032, 7340032]) (h := [1048576, 1048576]) (fun _ => rfl) h15 (check_cut (c1 := [6815744, 7340032]) (c2 := [7864320, 7340032]) (h := [524288, 1048576]) (fun _ => rfl) h16 (check_cut (c1 := [7864320, 6815744]) (c2 := [7864320, 7864320]) (h := [524288, 524288]) (fun _ => rfl) h17 (check_cut (c1 := [7602176, 7864320]) (c2 := [8126464, 7864320]) (h := [262144, 524288]) (fun _ => rfl) h18 (check_cut (c1 := [8126464, 7602176]) (c2 := [8126464, 8126464]) (h := [262144, 262144]) (fun _ => rfl) h19 (check_cut (c1 := [7995392, 8126464]) (c2 := [8257536, 8126464]) (h := [131072, 262144]) (fun _ => rfl) (check_cut (c1 := [7995392, 7995392]) (c2 := [7995392, 8257536]) (h := [131072, 131072]) (fun _ => rfl) (check_cut (c1 := [7929856, 7995392]) (c2 := [8060928, 7995392]) (h := [65536, 131072]) (fun _ => rfl) h20 (check_cut (c1 := [8060928, 7929856]) (c2 := [8060928, 8060928]) (h := [65536, 65536]) (fun _ => rfl) h21 h22)) h23) (check_cut (c1 := [8257536, 7995392]) (c2 := [8257536, 8257536]) (h := [131072, 131072]) (fun _ => rfl) h24 (check_cut (c1 := [8192000, 8257536]) (c2 := [8323072, 8257536]) (h := [65536, 131072]) (fun _ => rfl) (check_cut (c1 := [8192000, 8192000]) (c2 := [8192000, 8323072]) (h := [65536, 65536]) (fun _ => rfl) (check_cut (c1 := [8159232, 8192000]) (c2 := [8224768, 8192000]) (h := [32768, 65536]) (fun _ => rfl) h25 (check_cut (c1 := [8224768, 8159232]) (c2 := [8224768, 8224768]) (h := [32768, 32768]) (fun _ => rfl) h26 h27)) h28) (check_cut (c1 := [8323072, 8192000]) (c2 := [8323072, 8323072]) (h := [65536, 65536]) (fun _ => rfl) h29 (check_cut (c1 := [8290304, 8323072]) (c2 := [8355840, 8323072]) (h := [32768, 65536]) (fun _ => rfl) (check_cut (c1 := [8290304, 8290304]) (c2 := [8290304, 8355840]) (h := [32768, 32768]) (fun _ => rfl) h30 h31) (check_cut (c1 := [8355840, 8290304]) (c2 := [8355840, 8355840]) (h := [32768, 32768]) (fun _ => rfl) h32 h33)))))))))))))) h34) (check_cut (c1 := [12582912, 4194304]) (c2 := [12582912, 12582912]) (h := [4194304, 4194304]) (fun _ => rfl) (check_cut (c1 := [10485760, 4194304]) (c2 := [14680064, 4194304]) (h := [2097152, 4194304]) (fun _ => rfl) (check_cut (c1 := [10485760, 2097152]) (c2 := [10485760, 6291456]) (h := [2097152, 2097152]) (fun _ => rfl) (check_cut (c1 := [9437184, 2097152]) (c2 := [11534336, 2097152]) (h := [1048576, 2097152]) (fun _ => rfl) (check_cut (c1 := [9437184, 1048576]) (c2 := [9437184, 3145728]) (h := [1048576, 1048576]) (fun _ => rfl) (check_cut (c1 := [8912896, 1048576]) (c2 := [9961472, 1048576]) (h := [524288, 1048576]) (fun _ => rfl) (check_cut (c1 := [8912896, 524288]) (c2 := [8912896, 1572864]) (h := [524288, 524288]) (fun _ => rfl) (check_cut (c1 := [8650752, 524288]) (c2 := [9175040, 524288]) (h := [262144, 524288]) (fun _ => rfl) (check_cut (c1 := [8650752, 262144]) (c2 := [8650752, 786432]) (h := [262144, 262144]) (fun _ => rfl) (check_cut (c1 := [8519680, 262144]) (c2 := [8781824, 262144]) (h := [131072, 262144]) (fun _ => rfl) (check_cut (c1 := [8519680, 131072]) (c2 := [8519680, 393216]) (h := [131072, 131072]) (fun _ => rfl) (check_cut (c1 := [8454144, 131072]) (c2 := [8585216, 131072]) (h := [65536, 131072]) (fun _ => rfl) (check_cut (c1 := [8454144, 65536]) (c2 := [8454144, 196608]) (h := [65536, 65536]) (fun _ => rfl) (check_cut (c1 := [8421376, 65536]) (c2 := [8486912, 65536]) (h := [32768, 65536]) (fun _ => rfl) h35 h36) h37) (check_cut (c1 := [8585216, 65536]) (c2 := [8585216, 196608]) (h := [65536, 65536]) (fun _ => rfl) h38 h39)) h40) (check_cut (c1 := [8781824, 131072]) (c2 := [8781824, 393216]) (h := [131072, 131072]) (fun _ => rfl) h41 h42)) h43) h44) h45) h46) h47) h48) h49) h50) h51))

end FastNoise.NormCheck.Simplex2
