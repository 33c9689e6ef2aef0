import Verif.NormCheckLemmas
import Verif.NormCertSuper3P0
import Verif.NormCertSuper3P1
import Verif.NormCertSuper3P2
/-! Generated by tools/normcert/gen.py: a certificate for the checker `Verif.NormCheck`. -/
namespace FastNoise.NormCheck.Super3
open FastNoise.RangeCheck (Tree)

def tree : Tree := (.cut 0 (.cut 1 (.cut 2 (.cut 0 t0 (.cut 1 (.cut 2 (.cut 0 t1 (.cut 1 (.cut 2 (.cut 0 t2 (.cut 1 (.cut 2 (.cut 0 t3 (.cut 1 (.cut 2 (.cut 0 t4 (.cut 1 t5 t6)) t7) t8)) t9) t10)) t11) t12)) t13) (.cut 2 t14 (.cut 0 t15 (.cut 1 t16 (.cut 2 t17 (.cut 0 t18 (.cut 1 t19 (.cut 2 t20 (.cut 0 t21 (.cut 1 t22 (.cut 2 t23 (.cut 0 t24 (.cut 1 t25 (.cut 2 t26 t27))))))))))))))) (.cut 0 t28 (.cut 1 t29 (.cut 2 (.cut 0 t30 t31) t32)))) (.cut 2 t33 t34)) (.cut 1 (.cut 2 (.cut 0 (.cut 1 (.cut 2 (.cut 0 (.cut 1 (.cut 2 (.cut 0 (.cut 1 (.cut 2 (.cut 0 (.cut 1 (.cut 2 (.cut 0 (.cut 1 (.cut 2 (.cut 0 (.cut 1 (.cut 2 (.cut 0 (.cut 1 t35 t36) t37) t38) t39) t40) t41) t42) t43) t44) t45) t46) t47) t48) t49) t50) t51) t52) t53) (.cut 2 (.cut 0 t54 t55) (.cut 0 (.cut 1 t56 (.cut 2 t57 (.cut 0 (.cut 1 t58 (.cut 2 t59 (.cut 0 (.cut 1 t60 (.cut 2 t61 (.cut 0 (.cut 1 t62 (.cut 2 t63 t64)) t65))) t66))) t67))) t68))) (.cut 1 t69 (.cut 2 (.cut 0 t70 (.cut 1 t71 (.cut 2 (.cut 0 t72 (.cut 1 t73 (.cut 2 (.cut 0 t74 (.cut 1 t75 (.cut 2 (.cut 0 t76 (.cut 1 t77 (.cut 2 (.cut 0 t78 t79) t80))) t81))) t82))) t83))) t84))) (.cut 0 (.cut 1 t85 (.cut 2 (.cut 0 t86 t87) t88)) t89)) (.cut 2 (.cut 0 (.cut 1 (.cut 2 t90 (.cut 0 (.cut 1 (.cut 2 t91 (.cut 0 (.cut 1 (.cut 2 t92 (.cut 0 (.cut 1 (.cut 2 t93 (.cut 0 (.cut 1 t94 t95) t96)) t97) t98)) t99) t100)) t101) t102)) t103) (.cut 1 (.cut 2 (.cut 0 t104 (.cut 1 (.cut 2 (.cut 0 t105 (.cut 1 (.cut 2 (.cut 0 t106 t107) t108) t109)) t110) t111)) t112) t113)) t114)))
theorem checked : check par tree [8388608, 8388608, 8388608] [8388608, 8388608, 8388608] st = true := (check_cut (c1 := [4194304, 8388608, 8388608]) (c2 := [12582912, 8388608, 8388608]) (h := [4194304, 8388608, 8388608]) (fun _ => rfl) (check_cut (c1 := [4194304, 4194304, 8388608]) (c2 := [4194304, 12582912, 8388608]) (h := [4194304, 4194304, 8388608]) (fun _ => rfl) (check_cut (c1 := [4194304, 4194304, 4194304]) (c2 := [4194304, 4194304, 12582912]) (h := [4194304, 4194304, 4194304]) (fun _ => rfl) (check_cut (c1 := [2097152, 4194304, 4194304]) (c2 := [6291456, 4194304, 4194304]) (h := [2097152, 4194304, 4194304]) (fun _ => rfl) h0 (check_cut (c1 := [6291456, 2097152, 4194304]) (c2 := [6291456, 6291456, 4194304]) (h := [2097152, 2097152, 4194304]) (fun _ => rfl) (check_cut (c1 := [6291456, 2097152, 2097152]) (c2 := [6291456, 2097152, 6291456]) (h := [2097152, 2097152, 2097152]) (fun _ => rfl) (check_cut (c1 := [5242880, 2097152, 2097152]) (c2 := [7340032, 2097152, 2097152]) (h := [1048576, 2097152, 2097152]) (fun _ => rfl) h1 (check_cut (c1 := [7340032, 1048576, 2097152]) (c2 := [7340032, 3145728, 2097152]) (h := [1048576, 1048576, 2097152]) (fun _ => rfl) (check_cut (c1 := [7340032, 1048576, 1048576]) (c2 := [7340032, 1048576, 3145728]) (h := [1048576, 1048576, 1048576]) (fun _ => rfl) (check_cut (c1 := [6815744, 1048576, 1048576]) (c2 := [7864320, 1048576, 1048576]) (h := [524288, 1048576, 1048576]) (fun _ => rfl) h2 (check_cut (c1 := [7864320, 524288, 1048576]) (c2 := [7864320, 1572864, 1048576]) (h := [524288, 524288, 1048576]) (fun _ => rfl) (check_cut (c1 := [7864320, 524288, 524288]) (c2 := [7864320, 524288, 1572864]) (h := [524288, 524288, 524288]) (fun _ => rfl) (check_cut (c1 := [7602176, 524288, 524288]) (c2 := [8126464, 524288, 524288]) (h := [262144, 524288, 524288]) (fun _ => rfl) h3 (check_cut (c1 := [8126464, 262144, 524288]) (c2 := [8126464, 786432, 524288]) (h := [262144, 262144, 524288]) (fun _ => rfl) (check_cut (c1 := [8126464, 262144, 262144]) (c2 := [8126464, 262144, 786432]) (h := [262144, 262144, 262144]) (fun _ => rfl) (check_cut (c1 := [7995392, 262144, 262144]) (c2 := [8257536, 262144, 262144]) (h := [131072, 262144, 262144]) (fun _ => rfl) h4 (check_cut (c1 := [8257536, 131072, 262144]) (c2 := [8257536, 393216, 262144]) (h := [131072, 131072, 262144]) (fun _ => rfl) h5 h6)) h7) h8)) h9) h10)) h11) h12)) h13) (check_cut (c1 := [6291456, 6291456, 2097152]) (c2 := [6291456, 6291456, 6291456]) (h := [2097152, 2097152, 2097152]) (fun _ => rfl) h14 (check_cut (c1 := [5242880, 6291456, 6291456]) (c2 := [7340032, 6291456, 6291456]) (h := [1048576, 2097152, 2097152]) (fun _ => rfl) h15 (check_cut (c1 := [7340032, 5242880, 6291456]) (c2 := [7340032, 7340032, 6291456]) (h := [1048576, 1048576, 2097152]) (fun _ => rfl) h16 (check_cut (c1 := [7340032, 7340032, 5242880]) (c2 := [7340032, 7340032, 7340032]) (h := [1048576, 1048576, 1048576]) (fun _ => rfl) h17 (check_cut (c1 := [6815744, 7340032, 7340032]) (c2 := [7864320, 7340032, 7340032]) (h := [524288, 1048576, 1048576]) (fun _ => rfl) h18 (check_cut (c1 := [7864320, 6815744, 7340032]) (c2 := [7864320, 7864320, 7340032]) (h := [524288, 524288, 1048576]) (fun _ => rfl) h19 (check_cut (c1 := [7864320, 7864320, 6815744]) (c2 := [7864320, 7864320, 7864320]) (h := [524288, 524288, 524288]) (fun _ => rfl) h20 (check_cut (c1 := [7602176, 7864320, 7864320]) (c2 := [8126464, 7864320, 7864320]) (h := [262144, 524288, 524288]) (fun _ => rfl) h21 (check_cut (c1 := [8126464, 7602176, 7864320]) (c2 := [8126464, 8126464, 7864320]) (h := [262144, 262144, 524288]) (fun _ => rfl) h22 (check_cut (c1 := [8126464, 8126464, 7602176]) (c2 := [8126464, 8126464, 8126464]) (h := [262144, 262144, 262144]) (fun _ => rfl) h23 (check_cut (c1 := [7995392, 8126464, 8126464]) (c2 := [8257536, 8126464, 8126464]) (h := [131072, 262144, 262144]) (fun _ => rfl) h24 (check_cut (c1 := [8257536, 7995392, 8126464]) (c2 := [8257536, 8257536, 8126464]) (h := [131072, 131072, 262144]) (fun _ => rfl) h25 (check_cut (c1 := [8257536, 8257536, 7995392]) (c2 := [8257536, 8257536, 8257536]) (h := [131072, 131072, 131072]) (fun _ => rfl) h26 h27))))))))))))))) (check_cut (c1 := [2097152, 4194304, 12582912]) (c2 := [6291456, 4194304, 12582912]) (h := [2097152, 4194304, 4194304]) (fun _ => rfl) h28 (check_cut (c1 := [6291456, 2097152, 12582912]) (c2 := [6291456, 6291456, 12582912]) (h := [2097152, 2097152, 4194304]) (fun _ => rfl) h29 (check_cut (c1 := [6291456, 6291456, 10485760]) (c2 := [6291456, 6291456, 14680064]) (h := [2097152, 2097152, 2097152]) (fun _ => rfl) (check_cut (c1 := [5242880, 6291456, 10485760]) (c2 := [7340032, 6291456, 10485760]) (h := [1048576, 2097152, 2097152]) (fun _ => rfl) h30 h31) h32)))) (check_cut (c1 := [4194304, 12582912, 4194304]) (c2 := [4194304, 12582912, 12582912]) (h := [4194304, 4194304, 4194304]) (fun _ => rfl) h33 h34)) (check_cut (c1 := [12582912, 4194304, 8388608]) (c2 := [12582912, 12582912, 8388608]) (h := [4194304, 4194304, 8388608]) (fun _ => rfl) (check_cut (c1 := [12582912, 4194304, 4194304]) (c2 := [12582912, 4194304, 12582912]) (h := [4194304, 4194304, 4194304]) (fun _ => rfl) (check_cut (c1 := [10485760, 4194304, 4194304]) (c2 := [14680064, 4194304, 4194304]) (h := [2097152, 4194304, 4194304]) (fun _ => rfl) (check_cut (c1 := [10485760, 2097152, 4194304]) (c2 := [10485760, 6291456, 4194304]) (h := [2097152, 2097152, 4194304]) (fun _ => rfl) (check_cut (c1 := [10485760, 2097152, 2097152]) (c2 := [10485760, 2097152, 6291456]) (h := [2097152, 2097152, 2097152]) (fun _ => rfl) (check_cut (c1 := [9437184, 2097152, 2097152]) (c2 := [11534336, 2097152, 2097152]) (h := [1048576, 2097152, 2097152]) (fun _ => rfl) (check_cut (c1 := [9437184, 1048576, 2097152]) (c2 := [9437184, 3145728, 2097152]) (h := [1048576, 1048576, 2097152]) (fun _ => rfl) (check_cut (c1 := [9437184, 1048576, 1048576]) (c2 := [9437184, 1048576, 3145728]) (h := [1048576, 1048576, 1048576]) (fun _ => rfl) (check_cut (c1 := [8912896, 1048576, 1048576]) (c2 := [9961472, 1048576, 1048576]) (h := [524288, 1048576, 1048576]) (fun _ => rfl) (check_cut (c1 := [8912896, 524288, 1048576]) (c2 := [8912896, 1572864, 1048576]) (h := [524288, 524288, 1048576]) (fun _ => rfl) (check_cut (c1 := [8912896, 524288, 524288]) (c2 := [8912896, 524288, 1572864]) (h := [524288, 524288, 524288]) (fun _ => rfl) (check_cut (c1 := [8650752, 524288, 524288]) (c2 := [9175040, 524288, 524288]) (h := [262144, 524288, 524288]) (fun _ => rfl) (check_cut (c1 := [8650752, 262144, 524288]) (c2 := [8650752, 786432, 524288]) (h := [262144, 262144, 524288]) (fun _ => rfl) (check_cut (c1 := [8650752, 262144, 262144]) (c2 := [8650752, 262144, 786432]) (h := [262144, 262144, 262144]) (fun _ => rfl) (check_cut (c1 := [8519680, 262144, 262144]) (c2 := [8781824, 262144, 262144]) (h := [131072, 262144, 262144]) (fun _ => rfl) (check_cut (c1 := [8519680, 131072, 262144]) (c2 := [8519680, 393216, 262144]) (h := [131072, 131072, 262144]) (fun _ => rfl) (check_cut (c1 := [8519680, 131072, 131072]) (c2 := [8519680, 131072, 393216]) (h := [131072, 131072, 131072]) (fun _ => rfl) (check_cut (c1 := [8454144, 131072, 131072]) (c2 := [8585216, 131072, 131072]) (h := [65536, 131072, 131072]) (fun _ => rfl) (check_cut (c1 := [8454144, 65536, 131072]) (c2 := [8454144, 196608, 131072]) (h := [65536, 65536, 131072]) (fun _ => rfl) (check_cut (c1 := [8454144, 65536, 65536]) (c2 := [8454144, 65536, 196608]) (h := [65536, 65536, 65536]) (fun _ => rfl) (check_cut (c1 := [8421376, 65536, 65536]) (c2 := [8486912, 65536, 65536]) (h := [32768, 65536, 65536]) (fun _ => rfl) (check_cut (c1 := [8421376, 32768, 65536]) (c2 := [8421376, 98304, 65536]) (h := [32768, 32768, 65536]) (fun _ => rfl) h35 h36) h37) h38) h39) h40) h41) h42) h43) h44) h45) h46) h47) h48) h49) h50) h51) h52) h53) (check_cut (c1 := [10485760, 6291456, 2097152]) (c2 := [10485760, 6291456, 6291456]) (h := [2097152, 2097152, 2097152]) (fun _ => rfl) (check_cut (c1 := [9437184, 6291456, 2097152]) (c2 := [11534336, 6291456, 2097152]) (h := [1048576, 2097152, 2097152]) (fun _ => rfl) h54 h55) (check_cut (c1 := [9437184, 6291456, 6291456]) (c2 := [11534336, 6291456, 6291456]) (h := [1048576, 2097152, 2097152]) (fun _ => rfl) (check_cut (c1 := [9437184, 5242880, 6291456]) (c2 := [9437184, 7340032, 6291456]) (h := [1048576, 1048576, 2097152]) (fun _ => rfl) h56 (check_cut (c1 := [9437184, 7340032, 5242880]) (c2 := [9437184, 7340032, 7340032]) (h := [1048576, 1048576, 1048576]) (fun _ => rfl) h57 (check_cut (c1 := [8912896, 7340032, 7340032]) (c2 := [9961472, 7340032, 7340032]) (h := [524288, 1048576, 1048576]) (fun _ => rfl) (check_cut (c1 := [8912896, 6815744, 7340032]) (c2 := [8912896, 7864320, 7340032]) (h := [524288, 524288, 1048576]) (fun _ => rfl) h58 (check_cut (c1 := [8912896, 7864320, 6815744]) (c2 := [8912896, 7864320, 7864320]) (h := [524288, 524288, 524288]) (fun _ => rfl) h59 (check_cut (c1 := [8650752, 7864320, 7864320]) (c2 := [9175040, 7864320, 7864320]) (h := [262144, 524288, 524288]) (fun _ => rfl) (check_cut (c1 := [8650752, 7602176, 7864320]) (c2 := [8650752, 8126464, 7864320]) (h := [262144, 262144, 524288]) (fun _ => rfl) h60 (check_cut (c1 := [8650752, 8126464, 7602176]) (c2 := [8650752, 8126464, 8126464]) (h := [262144, 262144, 262144]) (fun _ => rfl) h61 (check_cut (c1 := [8519680, 8126464, 8126464]) (c2 := [8781824, 8126464, 8126464]) (h := [131072, 262144, 262144]) (fun _ => rfl) (check_cut (c1 := [8519680, 7995392, 8126464]) (c2 := [8519680, 8257536, 8126464]) (h := [131072, 131072, 262144]) (fun _ => rfl) h62 (check_cut (c1 := [8519680, 8257536, 7995392]) (c2 := [8519680, 8257536, 8257536]) (h := [131072, 131072, 131072]) (fun _ => rfl) h63 h64)) h65))) h66))) h67))) h68))) (check_cut (c1 := [14680064, 2097152, 4194304]) (c2 := [14680064, 6291456, 4194304]) (h := [2097152, 2097152, 4194304]) (fun _ => rfl) h69 (check_cut (c1 := [14680064, 6291456, 2097152]) (c2 := [14680064, 6291456, 6291456]) (h := [2097152, 2097152, 2097152]) (fun _ => rfl) (check_cut (c1 := [13631488, 6291456, 2097152]) (c2 := [15728640, 6291456, 2097152]) (h := [1048576, 2097152, 2097152]) (fun _ => rfl) h70 (check_cut (c1 := [15728640, 5242880, 2097152]) (c2 := [15728640, 7340032, 2097152]) (h := [1048576, 1048576, 2097152]) (fun _ => rfl) h71 (check_cut (c1 := [15728640, 7340032, 1048576]) (c2 := [15728640, 7340032, 3145728]) (h := [1048576, 1048576, 1048576]) (fun _ => rfl) (check_cut (c1 := [15204352, 7340032, 1048576]) (c2 := [16252928, 7340032, 1048576]) (h := [524288, 1048576, 1048576]) (fun _ => rfl) h72 (check_cut (c1 := [16252928, 6815744, 1048576]) (c2 := [16252928, 7864320, 1048576]) (h := [524288, 524288, 1048576]) (fun _ => rfl) h73 (check_cut (c1 := [16252928, 7864320, 524288]) (c2 := [16252928, 7864320, 1572864]) (h := [524288, 524288, 524288]) (fun _ => rfl) (check_cut (c1 := [15990784, 7864320, 524288]) (c2 := [16515072, 7864320, 524288]) (h := [262144, 524288, 524288]) (fun _ => rfl) h74 (check_cut (c1 := [16515072, 7602176, 524288]) (c2 := [16515072, 8126464, 524288]) (h := [262144, 262144, 524288]) (fun _ => rfl) h75 (check_cut (c1 := [16515072, 8126464, 262144]) (c2 := [16515072, 8126464, 786432]) (h := [262144, 262144, 262144]) (fun _ => rfl) (check_cut (c1 := [16384000, 8126464, 262144]) (c2 := [16646144, 8126464, 262144]) (h := [131072, 262144, 262144]) (fun _ => rfl) h76 (check_cut (c1 := [16646144, 7995392, 262144]) (c2 := [16646144, 8257536, 262144]) (h := [131072, 131072, 262144]) (fun _ => rfl) h77 (check_cut (c1 := [16646144, 8257536, 131072]) (c2 := [16646144, 8257536, 393216]) (h := [131072, 131072, 131072]) (fun _ => rfl) (check_cut (c1 := [16580608, 8257536, 131072]) (c2 := [16711680, 8257536, 131072]) (h := [65536, 131072, 131072]) (fun _ => rfl) h78 h79) h80))) h81))) h82))) h83))) h84))) (check_cut (c1 := [10485760, 4194304, 12582912]) (c2 := [14680064, 4194304, 12582912]) (h := [2097152, 4194304, 4194304]) (fun _ => rfl) (check_cut (c1 := [10485760, 2097152, 12582912]) (c2 := [10485760, 6291456, 12582912]) (h := [2097152, 2097152, 4194304]) (fun _ => rfl) h85 (check_cut (c1 := [10485760, 6291456, 10485760]) (c2 := [10485760, 6291456, 14680064]) (h := [2097152, 2097152, 2097152]) (fun _ => rfl) (check_cut (c1 := [9437184, 6291456, 10485760]) (c2 := [11534336, 6291456, 10485760]) (h := [1048576, 2097152, 2097152]) (fun _ => rfl) h86 h87) h88)) h89)) (check_cut (c1 := [12582912, 12582912, 4194304]) (c2 := [12582912, 12582912, 12582912]) (h := [4194304, 4194304, 4194304]) (fun _ => rfl) (check_cut (c1 := [10485760, 12582912, 4194304]) (c2 := [14680064, 12582912, 4194304]) (h := [2097152, 4194304, 4194304]) (fun _ => rfl) (check_cut (c1 := [10485760, 10485760, 4194304]) (c2 := [10485760, 14680064, 4194304]) (h := [2097152, 2097152, 4194304]) (fun _ => rfl) (check_cut (c1 := [10485760, 10485760, 2097152]) (c2 := [10485760, 10485760, 6291456]) (h := [2097152, 2097152, 2097152]) (fun _ => rfl) h90 (check_cut (c1 := [9437184, 10485760, 6291456]) (c2 := [11534336, 10485760, 6291456]) (h := [1048576, 2097152, 2097152]) (fun _ => rfl) (check_cut (c1 := [9437184, 9437184, 6291456]) (c2 := [9437184, 11534336, 6291456]) (h := [1048576, 1048576, 2097152]) (fun _ => rfl) (check_cut (c1 := [9437184, 9437184, 5242880]) (c2 := [9437184, 9437184, 7340032]) (h := [1048576, 1048576, 1048576]) (fun _ => rfl) h91 (check_cut (c1 := [8912896, 9437184, 7340032]) (c2 := [9961472, 9437184, 7340032]) (h := [524288, 1048576, 1048576]) (fun _ => rfl) (check_cut (c1 := [8912896, 8912896, 7340032]) (c2 := [8912896, 9961472, 7340032]) (h := [524288, 524288, 1048576]) (fun _ => rfl) (check_cut (c1 := [8912896, 8912896, 6815744]) (c2 := [8912896, 8912896, 7864320]) (h := [524288, 524288, 524288]) (fun _ => rfl) h92 (check_cut (c1 := [8650752, 8912896, 7864320]) (c2 := [9175040, 8912896, 7864320]) (h := [262144, 524288, 524288]) (fun _ => rfl) (check_cut (c1 := [8650752, 8650752, 7864320]) (c2 := [8650752, 9175040, 7864320]) (h := [262144, 262144, 524288]) (fun _ => rfl) (check_cut (c1 := [8650752, 8650752, 7602176]) (c2 := [8650752, 8650752, 8126464]) (h := [262144, 262144, 262144]) (fun _ => rfl) h93 (check_cut (c1 := [8519680, 8650752, 8126464]) (c2 := [8781824, 8650752, 8126464]) (h := [131072, 262144, 262144]) (fun _ => rfl) (check_cut (c1 := [8519680, 8519680, 8126464]) (c2 := [8519680, 8781824, 8126464]) (h := [131072, 131072, 262144]) (fun _ => rfl) h94 h95) h96)) h97) h98)) h99) h100)) h101) h102)) h103) (check_cut (c1 := [14680064, 10485760, 4194304]) (c2 := [14680064, 14680064, 4194304]) (h := [2097152, 2097152, 4194304]) (fun _ => rfl) (check_cut (c1 := [14680064, 10485760, 2097152]) (c2 := [14680064, 10485760, 6291456]) (h := [2097152, 2097152, 2097152]) (fun _ => rfl) (check_cut (c1 := [13631488, 10485760, 2097152]) (c2 := [15728640, 10485760, 2097152]) (h := [1048576, 2097152, 2097152]) (fun _ => rfl) h104 (check_cut (c1 := [15728640, 9437184, 2097152]) (c2 := [15728640, 11534336, 2097152]) (h := [1048576, 1048576, 2097152]) (fun _ => rfl) (check_cut (c1 := [15728640, 9437184, 1048576]) (c2 := [15728640, 9437184, 3145728]) (h := [1048576, 1048576, 1048576]) (fun _ => rfl) (check_cut (c1 := [15204352, 9437184, 1048576]) (c2 := [16252928, 9437184, 1048576]) (h := [524288, 1048576, 1048576]) (fun _ => rfl) h105 (check_cut (c1 := [16252928, 8912896, 1048576]) (c2 := [16252928, 9961472, 1048576]) (h := [524288, 524288, 1048576]) (fun _ => rfl) (check_cut (c1 := [16252928, 8912896, 524288]) (c2 := [16252928, 8912896, 1572864]) (h := [524288, 524288, 524288]) (fun _ => rfl) (check_cut (c1 := [15990784, 8912896, 524288]) (c2 := [16515072, 8912896, 524288]) (h := [262144, 524288, 524288]) (fun _ => rfl) h106 h107) h108) h109)) h110) h111)) h112) h113)) h114)))

end FastNoise.NormCheck.Super3
