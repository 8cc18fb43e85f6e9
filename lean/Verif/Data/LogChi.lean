import Verif.Data.Tok

set_option autoImplicit false

/-! Generated by `tools/tables.py` from `Tables/log_chi.table` in the repository. -/

namespace QED
namespace Shipped

/-- The numbers of `log_chi.table`. -/
def logChi : List Tok := [
  g 16 23010299956639813, g 16 22474842381320217, g 16 21939384806000621, g 16 21403927230681026,
  g 16 20868469655361430, g 16 20333012080041835, g 16 19797554504722241, g 16 19262096929402648,
  g 16 18726639354083054, g 16 18191181778763461, g 16 17655724203443868, g 16 17120266628124274,
  g 16 16584809052804681, g 16 16049351477485088, g 16 15513893902165494, g 16 14978436326845901,
  g 16 14442978751526308, g 16 13907521176206714, g 16 13372063600887121, g 16 12836606025567527,
  g 16 12301148450247934, g 16 11765690874928341, g 16 11230233299608747, g 16 10694775724289154,
  g 16 10159318148969561, g 16 9623860573649966, g 16 9088402998330372, g 16 8552945423010777,
  g 16 8017487847691183, g 16 7482030272371588, g 16 6946572697051994, g 16 6411115121732399,
  g 16 5875657546412805, g 16 5340199971093210, g 16 4804742395773616, g 16 4269284820454022,
  g 16 3733827245134428, g 16 3198369669814835, g 16 2662912094495241, g 16 2127454519175647,
  g 16 1591996943856053, g 16 1056539368536459, g 16 521081793216865, f 16 14375782102729,
  f 16 549833357422324, f 16 1085290932741918, f 16 1620748508061512, f 16 2156206083381106,
  f 16 2691663658700700, f 16 3227121234020294, f 16 3762578809339888, f 16 4298036384659482,
  f 16 4833493959979075, f 16 5368951535298669, f 16 5904409110618264, f 16 6439866685937858,
  f 16 6975324261257453, f 16 7510781836577047, f 16 8046239411896642, f 16 8581696987216236,
  f 16 9117154562535831, f 16 9652612137855425, f 16 10188069713175019, f 16 10723527288494612,
  f 16 11258984863814205, f 16 11794442439133799, f 16 12329900014453392, f 16 12865357589772985,
  f 16 13400815165092579, f 16 13936272740412172, f 16 14471730315731766, f 16 15007187891051359,
  f 16 15542645466370952, f 16 16078103041690546, f 16 16613560617010139, f 16 17149018192329732,
  f 16 17684475767649326, f 16 18219933342968919, f 16 18755390918288513, f 16 19290848493608106,
  f 16 19826306068927699, f 16 20361763644247293, f 16 20897221219566888, f 16 21432678794886484,
  f 16 21968136370206079, f 16 22503593945525675, f 16 23039051520845271, f 16 23574509096164866,
  f 16 24109966671484462, f 16 24645424246804057, f 16 25180881822123653, f 16 25716339397443249,
  f 16 26251796972762844, f 16 26787254548082440, f 16 27322712123402035, f 16 27858169698721631,
  f 16 28393627274041227, f 16 28929084849360822, f 16 29464542424680418, f 16 30000000000000013]

end Shipped
end QED
