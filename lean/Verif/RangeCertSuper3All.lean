import Verif.RangeCheckLemmas
import Verif.RangeCertSuper3P0
import Verif.RangeCertSuper3P1
import Verif.RangeCertSuper3P2
import Verif.RangeCertSuper3P3
import Verif.RangeCertSuper3P4
import Verif.RangeCertSuper3P5
import Verif.RangeCertSuper3P6
import Verif.RangeCertSuper3P7
import Verif.RangeCertSuper3P8
/-! Generated by tools/rangecert/gen.py: a certificate for the checker `Verif.RangeCheck`. -/
namespace FastNoise.RangeCheck.Super3

def tree : Tree := (.cut 0 t0 (.cut 1 (.cut 2 (.cut 0 (.cut 1 (.cut 2 (.cut 0 t1 t2) t3) (.cut 2 (.cut 0 (.cut 1 (.cut 2 t4 t5) t6) (.cut 1 (.cut 2 (.cut 0 t7 t8) (.cut 0 (.cut 1 (.cut 2 (.cut 0 (.cut 1 (.cut 2 (.cut 0 (.cut 1 t9 (.cut 2 (.cut 0 t10 (.cut 1 (.cut 2 t11 (.cut 0 (.cut 1 t12 (.cut 2 (.cut 0 t13 (.cut 1 t14 (.cut 2 t15 (.cut 0 t16 (.cut 1 t17 t18))))) t19)) t20)) (.cut 2 t21 (.cut 0 t22 t23)))) t24)) t25) t26) (.cut 2 t27 t28)) t29) t30) t31) t32)) t33)) (.cut 0 (.cut 1 t34 (.cut 2 t35 t36)) (.cut 1 t37 (.cut 2 (.cut 0 (.cut 1 t38 (.cut 2 t39 (.cut 0 (.cut 1 t40 (.cut 2 t41 (.cut 0 (.cut 1 t42 (.cut 2 t43 (.cut 0 t44 (.cut 1 t45 (.cut 2 (.cut 0 (.cut 1 t46 (.cut 2 t47 (.cut 0 t48 t49))) t50) t51))))) t52))) t53))) t54) t55))))) (.cut 1 t56 (.cut 2 (.cut 0 (.cut 1 t57 (.cut 2 (.cut 0 t58 (.cut 1 t59 t60)) (.cut 0 t61 (.cut 1 t62 (.cut 2 (.cut 0 t63 (.cut 1 t64 (.cut 2 (.cut 0 (.cut 1 t65 t66) (.cut 1 t67 (.cut 2 (.cut 0 (.cut 1 t68 (.cut 2 t69 (.cut 0 (.cut 1 t70 (.cut 2 (.cut 0 t71 t72) t73)) (.cut 1 t74 (.cut 2 (.cut 0 (.cut 1 t75 (.cut 2 t76 (.cut 0 t77 t78))) t79) t80))))) t81) t82))) t83))) t84))))) t85) t86))) t87) (.cut 2 (.cut 0 (.cut 1 (.cut 2 t88 (.cut 0 t89 (.cut 1 (.cut 2 (.cut 0 (.cut 1 (.cut 2 t90 (.cut 0 t91 t92)) t93) t94) t95) t96))) t97) (.cut 1 (.cut 2 (.cut 0 (.cut 1 (.cut 2 t98 (.cut 0 t99 (.cut 1 (.cut 2 (.cut 0 t100 (.cut 1 (.cut 2 t101 t102) t103)) t104) t105))) t106) t107) t108) t109)) t110)))
theorem checked : check par tree [32768, 32768, 32768] [32768, 32768, 32768] st = true := (check_cut (c1 := [16384, 32768, 32768]) (c2 := [49152, 32768, 32768]) (h := [16384, 32768, 32768]) (fun _ => rfl) h0 (check_cut (c1 := [49152, 16384, 32768]) (c2 := [49152, 49152, 32768]) (h := [16384, 16384, 32768]) (fun _ => rfl) (check_cut (c1 := [49152, 16384, 16384]) (c2 := [49152, 16384, 49152]) (h := [16384, 16384, 16384]) (fun _ => rfl) (check_cut (c1 := [40960, 16384, 16384]) (c2 := [57344, 16384, 16384]) (h := [8192, 16384, 16384]) (fun _ => rfl) (check_cut (c1 := [40960, 8192, 16384]) (c2 := [40960, 24576, 16384]) (h := [8192, 8192, 16384]) (fun _ => rfl) (check_cut (c1 := [40960, 8192, 8192]) (c2 := [40960, 8192, 24576]) (h := [8192, 8192, 8192]) (fun _ => rfl) (check_cut (c1 := [36864, 8192, 8192]) (c2 := [45056, 8192, 8192]) (h := [4096, 8192, 8192]) (fun _ => rfl) h1 h2) h3) (check_cut (c1 := [40960, 24576, 8192]) (c2 := [40960, 24576, 24576]) (h := [8192, 8192, 8192]) (fun _ => rfl) (check_cut (c1 := [36864, 24576, 8192]) (c2 := [45056, 24576, 8192]) (h := [4096, 8192, 8192]) (fun _ => rfl) (check_cut (c1 := [36864, 20480, 8192]) (c2 := [36864, 28672, 8192]) (h := [4096, 4096, 8192]) (fun _ => rfl) (check_cut (c1 := [36864, 20480, 4096]) (c2 := [36864, 20480, 12288]) (h := [4096, 4096, 4096]) (fun _ => rfl) h4 h5) h6) (check_cut (c1 := [45056, 20480, 8192]) (c2 := [45056, 28672, 8192]) (h := [4096, 4096, 8192]) (fun _ => rfl) (check_cut (c1 := [45056, 20480, 4096]) (c2 := [45056, 20480, 12288]) (h := [4096, 4096, 4096]) (fun _ => rfl) (check_cut (c1 := [43008, 20480, 4096]) (c2 := [47104, 20480, 4096]) (h := [2048, 4096, 4096]) (fun _ => rfl) h7 h8) (check_cut (c1 := [43008, 20480, 12288]) (c2 := [47104, 20480, 12288]) (h := [2048, 4096, 4096]) (fun _ => rfl) (check_cut (c1 := [43008, 18432, 12288]) (c2 := [43008, 22528, 12288]) (h := [2048, 2048, 4096]) (fun _ => rfl) (check_cut (c1 := [43008, 18432, 10240]) (c2 := [43008, 18432, 14336]) (h := [2048, 2048, 2048]) (fun _ => rfl) (check_cut (c1 := [41984, 18432, 10240]) (c2 := [44032, 18432, 10240]) (h := [1024, 2048, 2048]) (fun _ => rfl) (check_cut (c1 := [41984, 17408, 10240]) (c2 := [41984, 19456, 10240]) (h := [1024, 1024, 2048]) (fun _ => rfl) (check_cut (c1 := [41984, 17408, 9216]) (c2 := [41984, 17408, 11264]) (h := [1024, 1024, 1024]) (fun _ => rfl) (check_cut (c1 := [41472, 17408, 9216]) (c2 := [42496, 17408, 9216]) (h := [512, 1024, 1024]) (fun _ => rfl) (check_cut (c1 := [41472, 16896, 9216]) (c2 := [41472, 17920, 9216]) (h := [512, 512, 1024]) (fun _ => rfl) h9 (check_cut (c1 := [41472, 17920, 8704]) (c2 := [41472, 17920, 9728]) (h := [512, 512, 512]) (fun _ => rfl) (check_cut (c1 := [41216, 17920, 8704]) (c2 := [41728, 17920, 8704]) (h := [256, 512, 512]) (fun _ => rfl) h10 (check_cut (c1 := [41728, 17664, 8704]) (c2 := [41728, 18176, 8704]) (h := [256, 256, 512]) (fun _ => rfl) (check_cut (c1 := [41728, 17664, 8448]) (c2 := [41728, 17664, 8960]) (h := [256, 256, 256]) (fun _ => rfl) h11 (check_cut (c1 := [41600, 17664, 8960]) (c2 := [41856, 17664, 8960]) (h := [128, 256, 256]) (fun _ => rfl) (check_cut (c1 := [41600, 17536, 8960]) (c2 := [41600, 17792, 8960]) (h := [128, 128, 256]) (fun _ => rfl) h12 (check_cut (c1 := [41600, 17792, 8832]) (c2 := [41600, 17792, 9088]) (h := [128, 128, 128]) (fun _ => rfl) (check_cut (c1 := [41536, 17792, 8832]) (c2 := [41664, 17792, 8832]) (h := [64, 128, 128]) (fun _ => rfl) h13 (check_cut (c1 := [41664, 17728, 8832]) (c2 := [41664, 17856, 8832]) (h := [64, 64, 128]) (fun _ => rfl) h14 (check_cut (c1 := [41664, 17856, 8768]) (c2 := [41664, 17856, 8896]) (h := [64, 64, 64]) (fun _ => rfl) h15 (check_cut (c1 := [41632, 17856, 8896]) (c2 := [41696, 17856, 8896]) (h := [32, 64, 64]) (fun _ => rfl) h16 (check_cut (c1 := [41696, 17824, 8896]) (c2 := [41696, 17888, 8896]) (h := [32, 32, 64]) (fun _ => rfl) h17 h18))))) h19)) h20)) (check_cut (c1 := [41728, 18176, 8448]) (c2 := [41728, 18176, 8960]) (h := [256, 256, 256]) (fun _ => rfl) h21 (check_cut (c1 := [41600, 18176, 8960]) (c2 := [41856, 18176, 8960]) (h := [128, 256, 256]) (fun _ => rfl) h22 h23)))) h24)) h25) h26) (check_cut (c1 := [41984, 19456, 9216]) (c2 := [41984, 19456, 11264]) (h := [1024, 1024, 1024]) (fun _ => rfl) h27 h28)) h29) h30) h31) h32)) h33)) (check_cut (c1 := [36864, 24576, 24576]) (c2 := [45056, 24576, 24576]) (h := [4096, 8192, 8192]) (fun _ => rfl) (check_cut (c1 := [36864, 20480, 24576]) (c2 := [36864, 28672, 24576]) (h := [4096, 4096, 8192]) (fun _ => rfl) h34 (check_cut (c1 := [36864, 28672, 20480]) (c2 := [36864, 28672, 28672]) (h := [4096, 4096, 4096]) (fun _ => rfl) h35 h36)) (check_cut (c1 := [45056, 20480, 24576]) (c2 := [45056, 28672, 24576]) (h := [4096, 4096, 8192]) (fun _ => rfl) h37 (check_cut (c1 := [45056, 28672, 20480]) (c2 := [45056, 28672, 28672]) (h := [4096, 4096, 4096]) (fun _ => rfl) (check_cut (c1 := [43008, 28672, 20480]) (c2 := [47104, 28672, 20480]) (h := [2048, 4096, 4096]) (fun _ => rfl) (check_cut (c1 := [43008, 26624, 20480]) (c2 := [43008, 30720, 20480]) (h := [2048, 2048, 4096]) (fun _ => rfl) h38 (check_cut (c1 := [43008, 30720, 18432]) (c2 := [43008, 30720, 22528]) (h := [2048, 2048, 2048]) (fun _ => rfl) h39 (check_cut (c1 := [41984, 30720, 22528]) (c2 := [44032, 30720, 22528]) (h := [1024, 2048, 2048]) (fun _ => rfl) (check_cut (c1 := [41984, 29696, 22528]) (c2 := [41984, 31744, 22528]) (h := [1024, 1024, 2048]) (fun _ => rfl) h40 (check_cut (c1 := [41984, 31744, 21504]) (c2 := [41984, 31744, 23552]) (h := [1024, 1024, 1024]) (fun _ => rfl) h41 (check_cut (c1 := [41472, 31744, 23552]) (c2 := [42496, 31744, 23552]) (h := [512, 1024, 1024]) (fun _ => rfl) (check_cut (c1 := [41472, 31232, 23552]) (c2 := [41472, 32256, 23552]) (h := [512, 512, 1024]) (fun _ => rfl) h42 (check_cut (c1 := [41472, 32256, 23040]) (c2 := [41472, 32256, 24064]) (h := [512, 512, 512]) (fun _ => rfl) h43 (check_cut (c1 := [41216, 32256, 24064]) (c2 := [41728, 32256, 24064]) (h := [256, 512, 512]) (fun _ => rfl) h44 (check_cut (c1 := [41728, 32000, 24064]) (c2 := [41728, 32512, 24064]) (h := [256, 256, 512]) (fun _ => rfl) h45 (check_cut (c1 := [41728, 32512, 23808]) (c2 := [41728, 32512, 24320]) (h := [256, 256, 256]) (fun _ => rfl) (check_cut (c1 := [41600, 32512, 23808]) (c2 := [41856, 32512, 23808]) (h := [128, 256, 256]) (fun _ => rfl) (check_cut (c1 := [41600, 32384, 23808]) (c2 := [41600, 32640, 23808]) (h := [128, 128, 256]) (fun _ => rfl) h46 (check_cut (c1 := [41600, 32640, 23680]) (c2 := [41600, 32640, 23936]) (h := [128, 128, 128]) (fun _ => rfl) h47 (check_cut (c1 := [41536, 32640, 23936]) (c2 := [41664, 32640, 23936]) (h := [64, 128, 128]) (fun _ => rfl) h48 h49))) h50) h51))))) h52))) h53))) h54) h55))))) (check_cut (c1 := [57344, 8192, 16384]) (c2 := [57344, 24576, 16384]) (h := [8192, 8192, 16384]) (fun _ => rfl) h56 (check_cut (c1 := [57344, 24576, 8192]) (c2 := [57344, 24576, 24576]) (h := [8192, 8192, 8192]) (fun _ => rfl) (check_cut (c1 := [53248, 24576, 8192]) (c2 := [61440, 24576, 8192]) (h := [4096, 8192, 8192]) (fun _ => rfl) (check_cut (c1 := [53248, 20480, 8192]) (c2 := [53248, 28672, 8192]) (h := [4096, 4096, 8192]) (fun _ => rfl) h57 (check_cut (c1 := [53248, 28672, 4096]) (c2 := [53248, 28672, 12288]) (h := [4096, 4096, 4096]) (fun _ => rfl) (check_cut (c1 := [51200, 28672, 4096]) (c2 := [55296, 28672, 4096]) (h := [2048, 4096, 4096]) (fun _ => rfl) h58 (check_cut (c1 := [55296, 26624, 4096]) (c2 := [55296, 30720, 4096]) (h := [2048, 2048, 4096]) (fun _ => rfl) h59 h60)) (check_cut (c1 := [51200, 28672, 12288]) (c2 := [55296, 28672, 12288]) (h := [2048, 4096, 4096]) (fun _ => rfl) h61 (check_cut (c1 := [55296, 26624, 12288]) (c2 := [55296, 30720, 12288]) (h := [2048, 2048, 4096]) (fun _ => rfl) h62 (check_cut (c1 := [55296, 30720, 10240]) (c2 := [55296, 30720, 14336]) (h := [2048, 2048, 2048]) (fun _ => rfl) (check_cut (c1 := [54272, 30720, 10240]) (c2 := [56320, 30720, 10240]) (h := [1024, 2048, 2048]) (fun _ => rfl) h63 (check_cut (c1 := [56320, 29696, 10240]) (c2 := [56320, 31744, 10240]) (h := [1024, 1024, 2048]) (fun _ => rfl) h64 (check_cut (c1 := [56320, 31744, 9216]) (c2 := [56320, 31744, 11264]) (h := [1024, 1024, 1024]) (fun _ => rfl) (check_cut (c1 := [55808, 31744, 9216]) (c2 := [56832, 31744, 9216]) (h := [512, 1024, 1024]) (fun _ => rfl) (check_cut (c1 := [55808, 31232, 9216]) (c2 := [55808, 32256, 9216]) (h := [512, 512, 1024]) (fun _ => rfl) h65 h66) (check_cut (c1 := [56832, 31232, 9216]) (c2 := [56832, 32256, 9216]) (h := [512, 512, 1024]) (fun _ => rfl) h67 (check_cut (c1 := [56832, 32256, 8704]) (c2 := [56832, 32256, 9728]) (h := [512, 512, 512]) (fun _ => rfl) (check_cut (c1 := [56576, 32256, 8704]) (c2 := [57088, 32256, 8704]) (h := [256, 512, 512]) (fun _ => rfl) (check_cut (c1 := [56576, 32000, 8704]) (c2 := [56576, 32512, 8704]) (h := [256, 256, 512]) (fun _ => rfl) h68 (check_cut (c1 := [56576, 32512, 8448]) (c2 := [56576, 32512, 8960]) (h := [256, 256, 256]) (fun _ => rfl) h69 (check_cut (c1 := [56448, 32512, 8960]) (c2 := [56704, 32512, 8960]) (h := [128, 256, 256]) (fun _ => rfl) (check_cut (c1 := [56448, 32384, 8960]) (c2 := [56448, 32640, 8960]) (h := [128, 128, 256]) (fun _ => rfl) h70 (check_cut (c1 := [56448, 32640, 8832]) (c2 := [56448, 32640, 9088]) (h := [128, 128, 128]) (fun _ => rfl) (check_cut (c1 := [56384, 32640, 8832]) (c2 := [56512, 32640, 8832]) (h := [64, 128, 128]) (fun _ => rfl) h71 h72) h73)) (check_cut (c1 := [56704, 32384, 8960]) (c2 := [56704, 32640, 8960]) (h := [128, 128, 256]) (fun _ => rfl) h74 (check_cut (c1 := [56704, 32640, 8832]) (c2 := [56704, 32640, 9088]) (h := [128, 128, 128]) (fun _ => rfl) (check_cut (c1 := [56640, 32640, 8832]) (c2 := [56768, 32640, 8832]) (h := [64, 128, 128]) (fun _ => rfl) (check_cut (c1 := [56640, 32576, 8832]) (c2 := [56640, 32704, 8832]) (h := [64, 64, 128]) (fun _ => rfl) h75 (check_cut (c1 := [56640, 32704, 8768]) (c2 := [56640, 32704, 8896]) (h := [64, 64, 64]) (fun _ => rfl) h76 (check_cut (c1 := [56608, 32704, 8896]) (c2 := [56672, 32704, 8896]) (h := [32, 64, 64]) (fun _ => rfl) h77 h78))) h79) h80))))) h81) h82))) h83))) h84))))) h85) h86))) h87) (check_cut (c1 := [49152, 49152, 16384]) (c2 := [49152, 49152, 49152]) (h := [16384, 16384, 16384]) (fun _ => rfl) (check_cut (c1 := [40960, 49152, 16384]) (c2 := [57344, 49152, 16384]) (h := [8192, 16384, 16384]) (fun _ => rfl) (check_cut (c1 := [40960, 40960, 16384]) (c2 := [40960, 57344, 16384]) (h := [8192, 8192, 16384]) (fun _ => rfl) (check_cut (c1 := [40960, 40960, 8192]) (c2 := [40960, 40960, 24576]) (h := [8192, 8192, 8192]) (fun _ => rfl) h88 (check_cut (c1 := [36864, 40960, 24576]) (c2 := [45056, 40960, 24576]) (h := [4096, 8192, 8192]) (fun _ => rfl) h89 (check_cut (c1 := [45056, 36864, 24576]) (c2 := [45056, 45056, 24576]) (h := [4096, 4096, 8192]) (fun _ => rfl) (check_cut (c1 := [45056, 36864, 20480]) (c2 := [45056, 36864, 28672]) (h := [4096, 4096, 4096]) (fun _ => rfl) (check_cut (c1 := [43008, 36864, 20480]) (c2 := [47104, 36864, 20480]) (h := [2048, 4096, 4096]) (fun _ => rfl) (check_cut (c1 := [43008, 34816, 20480]) (c2 := [43008, 38912, 20480]) (h := [2048, 2048, 4096]) (fun _ => rfl) (check_cut (c1 := [43008, 34816, 18432]) (c2 := [43008, 34816, 22528]) (h := [2048, 2048, 2048]) (fun _ => rfl) h90 (check_cut (c1 := [41984, 34816, 22528]) (c2 := [44032, 34816, 22528]) (h := [1024, 2048, 2048]) (fun _ => rfl) h91 h92)) h93) h94) h95) h96))) h97) (check_cut (c1 := [57344, 40960, 16384]) (c2 := [57344, 57344, 16384]) (h := [8192, 8192, 16384]) (fun _ => rfl) (check_cut (c1 := [57344, 40960, 8192]) (c2 := [57344, 40960, 24576]) (h := [8192, 8192, 8192]) (fun _ => rfl) (check_cut (c1 := [53248, 40960, 8192]) (c2 := [61440, 40960, 8192]) (h := [4096, 8192, 8192]) (fun _ => rfl) (check_cut (c1 := [53248, 36864, 8192]) (c2 := [53248, 45056, 8192]) (h := [4096, 4096, 8192]) (fun _ => rfl) (check_cut (c1 := [53248, 36864, 4096]) (c2 := [53248, 36864, 12288]) (h := [4096, 4096, 4096]) (fun _ => rfl) h98 (check_cut (c1 := [51200, 36864, 12288]) (c2 := [55296, 36864, 12288]) (h := [2048, 4096, 4096]) (fun _ => rfl) h99 (check_cut (c1 := [55296, 34816, 12288]) (c2 := [55296, 38912, 12288]) (h := [2048, 2048, 4096]) (fun _ => rfl) (check_cut (c1 := [55296, 34816, 10240]) (c2 := [55296, 34816, 14336]) (h := [2048, 2048, 2048]) (fun _ => rfl) (check_cut (c1 := [54272, 34816, 10240]) (c2 := [56320, 34816, 10240]) (h := [1024, 2048, 2048]) (fun _ => rfl) h100 (check_cut (c1 := [56320, 33792, 10240]) (c2 := [56320, 35840, 10240]) (h := [1024, 1024, 2048]) (fun _ => rfl) (check_cut (c1 := [56320, 33792, 9216]) (c2 := [56320, 33792, 11264]) (h := [1024, 1024, 1024]) (fun _ => rfl) h101 h102) h103)) h104) h105))) h106) h107) h108) h109)) h110)))

end FastNoise.RangeCheck.Super3
