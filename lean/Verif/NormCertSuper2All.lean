import Verif.NormCheckLemmas
import Verif.NormCertSuper2P0
/-! Generated by tools/normcert/gen.py: a certificate for the checker `Verif.NormCheck`. -/
namespace FastNoise.NormCheck.Super2
open FastNoise.RangeCheck (Tree)

def tree : Tree := (.cut 0 t0 (.cut 1 (.cut 0 (.cut 1 t1 (.cut 0 t2 (.cut 1 (.cut 0 (.cut 1 t3 (.cut 0 t4 (.cut 1 (.cut 0 (.cut 1 t5 (.cut 0 t6 t7)) t8) t9))) t10) t11))) t12) t13))
theorem checked : check par tree [8388608, 8388608] [8388608, 8388608] st = true := (check_cut (c1 := [4194304, 8388608]) (c2 := [12582912, 8388608]) (h := [4194304, 8388608]) (fun _ => rfl) h0 (check_cut (c1 := [12582912, 4194304]) (c2 := [12582912, 12582912]) (h := [4194304, 4194304]) (fun _ => rfl) (check_cut (c1 := [10485760, 4194304]) (c2 := [14680064, 4194304]) (h := [2097152, 4194304]) (fun _ => rfl) (check_cut (c1 := [10485760, 2097152]) (c2 := [10485760, 6291456]) (h := [2097152, 2097152]) (fun _ => rfl) h1 (check_cut (c1 := [9437184, 6291456]) (c2 := [11534336, 6291456]) (h := [1048576, 2097152]) (fun _ => rfl) h2 (check_cut (c1 := [11534336, 5242880]) (c2 := [11534336, 7340032]) (h := [1048576, 1048576]) (fun _ => rfl) (check_cut (c1 := [11010048, 5242880]) (c2 := [12058624, 5242880]) (h := [524288, 1048576]) (fun _ => rfl) (check_cut (c1 := [11010048, 4718592]) (c2 := [11010048, 5767168]) (h := [524288, 524288]) (fun _ => rfl) h3 (check_cut (c1 := [10747904, 5767168]) (c2 := [11272192, 5767168]) (h := [262144, 524288]) (fun _ => rfl) h4 (check_cut (c1 := [11272192, 5505024]) (c2 := [11272192, 6029312]) (h := [262144, 262144]) (fun _ => rfl) (check_cut (c1 := [11141120, 5505024]) (c2 := [11403264, 5505024]) (h := [131072, 262144]) (fun _ => rfl) (check_cut (c1 := [11141120, 5373952]) (c2 := [11141120, 5636096]) (h := [131072, 131072]) (fun _ => rfl) h5 (check_cut (c1 := [11075584, 5636096]) (c2 := [11206656, 5636096]) (h := [65536, 131072]) (fun _ => rfl) h6 h7)) h8) h9))) h10) h11))) h12) h13))

end FastNoise.NormCheck.Super2
