import Verif.Lemmas.Opponent

/-! The sign of the opponent coordinate yellow-blue, red channels 128 to 255.
Generated by tools/gen_opponent.py. -/

namespace Mcu.Lemmas.Opp

theorem rows128 : rows 128 [0x7238dc4e270b81bede6eb75b8db6d365b0d86bb59aad46a34da4d16833d9ece66b3196ca6532590c7633198ac461b0984c1602fd7cbd5eaf176ba5cae570b75b2d56ab459ac962b1582bd5cad56ab156aa54aa550a7532954aa451a8944a15027d3c9e4ea71369b4d26530974ba592a944a24d249148a411e8e47235188b4522912884421d0c8542a11068241205007f3f9f8fa7d3e1ecf47a3c9e0f0773b1d4ea74399cce471389c0de6f371b4da6c359acd469349a0ce6733198ca643218cc46230984c05f2f978bc5d2e970b65b2d168b2592c160ae572b158aa552a150a65329148a25128140a04f279389c4d26934984c2612c964b251289449249249048241208e472391c8c46231188a45229148a452211088442211088432190c8643,
    0x7238dc6e270b81bede6f375b8db6d365b2d86bb59aad46a34da4d1683419ece66b3196cb6532590c763b198ac461b0d84c1602fd7cbe5eaf176ba5d2e570b75b2d96ab459ac964b1582bd5cae56ab156aa552a550a7532994aa451a8d44a15027d3e9e4ea71389b4d26530984ba592a954a24d249248a411e8e47235188b45a2912894421d0c8642a1106834120500803f9f8fc7d3e1ecf67a3c9e4f0773b1d8ea743a1cce472389c0e06f371b8da6c361acd46a349a0d06733998ca653218cc66231184c0602f97cbc5e2e970b85b2d968b4592c960b0572b958ac552a950a85329948a45128940a0502793c9c4e271349a4c26130964b25928944a2492492492412090482391c8e47231188c46231148a45229148a45221108844221108844,
    0x7238dc6e270b81bedf6f375b8db6d369b2d86bb59aad56a34da4d168b419ece66b3198cb6532590c863b198ac461b0d84c1602fd7ebe5eaf176bb5d2e570b75bad96ab459acd64b1582bd5eae56ab156ab552a550a753a994aa45228d44a1502813e9e4ea71389b4d26532984ba592c954a24d269248a411e8f47235188c45a2912894421d0e8642a1108834120502803f9fcfc7d3e1f0f67a3d1e4f0773b9d8ea753a1cce672389c4e06f379b8da6d361acd66a349a4d06833998cc6532190c66331184c2603017cbe5e2e974b85c2d96cb45a2c960b0572b958ac552a954a8542994ca45228944a0502813c9e4e271389a4d26930984c2592c964a251289249249249048241208e472391c8e46231188c46231148a45229148a45221108844,
    0x72391c6e270b81bedf6f375b8db6db69b2d86bb59acd56a34da4d168b419ece66b3598cb6532592c863b198ac46230d84c1603017ebe5eaf178bb5d2e570b85bad96ab45a2cd64b1582c15eae56ab158ab552a550a853a994aa45228d44a150a813e9e4ea75389b4d26932984ba5d2c954a251269248a41208f472351a8c45a291489442210e8642a150883412090280401fcfc7d3e9f0f67b3d1e4f0783b9d8ec753a1d0e672391c4e070379b8dc6d361b0d66a351a4d2683399ccc6532990c86331188c2613017cbe5e2f174ba5c2e16cb45a2c964b0582b95cac562a954a8542a14ca65229144a251281409e4f279389c4d26934984c2612c964b25128944a2492492492412090482391c8e472391c8c46231188c46231148a45229148a45,
    0x72b91c6e270b81c0df6f375b8db6db69b2d86bb5dacd56a34da4d268b419ece6733598cb6532592c863b198ac56230d84c160b017ebe5eaf578bb5d2e572b85bad96ab55a2cd64b158ac15eae56ab558ab552a552a853a994aa55228d44a250a813e9e4f275389b4da6932984c25d2c954a251269248a45208f472391a8c45a2d148944a210e8643215088341a090281401fcfc7e3e9f0f87b3d1e4f2783b9dcec753a9d0e673391c4e270379bcdc6d369b0d66b351a4d2683419ccc6632994c86331988c46130180be5f2f178ba5d2e16cb65a2d164b2582c15cae562b154aa542a150a65329148a25128940a04f2793c9c4e271349a4d26130984b2592c944a2512892492492490482412090472391c8e472391c8c46231188c46231148a45,
    0x72b91c6e270b85c0df6f375b8dc6db69b2d86c35dacd56a34da6d268b419ecf6733598cb6532992c863b198cc56230d84c260b017ebe5f2f578bb5d2e572b85bad96ab55a2cd64b258ac15eae572b558ab552a952a853a994ca55228d46a250a813e9f4f275389c4da6932994c25d2c954aa51269249245208f47a391a8c4622d148a44a210e8743215088441a090481401fcfe7e3e9f4f87b3d1e8f2783c1dcec763a9d0e873391c8e270381bcdc6e369b0d86b351a8d2693419cce6633194c8643198cc46130980c05f2f978ba5d2e170b65b2d168b2592c160ae572b158aa552a150a85329948a45128944a0502793c9e4e271389a4d26930984c2592c964b25128944a2492492492492090482412090472391c8e472391c8c46231188c46,
    0x72b91c6e271385c0df6f375badc6db69b2d86c35dacd56a351a6d268b419ecf6733598cb65b2992c863b1d8cc56230d86c260b017ebe5f2f578bb5d2e972b85bad96cb55a2cd64b258ac15eaf572b558ab55aa952a853a9d4ca55229146a250a81409f4f2753a9c4da6934994c25d2c964aa51269349245209047a391a8d4622d168a44a211087432150a8441a0d048140200fe7e3f1f4f87b3d9e8f2793c1dcee763a9d4e873399c8e271381bcde6e369b4d86b359a8d469341a0ce6633194ca643218cc46230984c0602f978bc5d2e970b85b2d968b4592c960b0572b958ac552a950a8542994ca45229144a250281409e4f279389c4e269349a4c26130964b2592c944a2512894492492492492412090482412090472391c8e472391c8c46,
    0x72b91c6e371385c0df6f379badc6db69b2d96c35dacd56ab51a6d268b41a0cf6733598cc65b2992c86431d8cc56230d86c260b017ebf5f2f578bb5dae972b85badd6cb55a2cd66b258ac160af572b558ac55aa952a85429d4ca552a9146a250a85409f4f2793a9c4da6d34994c25d2e964aa51289349245229047a391c8d46231168a44a251087432190a844220d048140a00fe7f3f1f4f87c3d9e8f4793c1e0ee763b1d4e874399c8e471381c0de6e371b4d86c359acd469349a0ce6733198ca643218cc66231184c0602f97cbc5e2e974b85c2d96cb45a2c964b0582b95cac562a954a8542a14ca65229148a25128140a04f2793c9c4e271349a4d26930984c2592c964b25128944a2512492492492492482412090482412090472391c8e47] = true := by decide +kernel

theorem rows136 : rows 136 [0x72b91c6e371385c0df6fb79badc6db69b4d96c35dacd66ab51a6d268b45a0cf673359acc65b2992c86431d8cc56231186c260b0180bf5f2f578bc5dae972b85c2dd6cb55a2d166b258ac160af572b55aac55aa952a95429d4ca652a9146a251285409f4fa793a9c4e26d34994c2612e964aa55289349249229047a3d1c8d46231168a45225108743a190a844220d048240a01007f3f1f4fa7c3d9ecf4793c9e0ee773b1d4ea74399cce471389c0de6f371b4da6c361acd46a349a0d06733998ca6532190c66331184c2603017cbe5e2f174ba5c2e16cb65a2d164b2582c15cae562b154aa552a150a65329148a45128944a0502813c9e4f271389c4d269349a4c26130964b2592c964a25128944a249249249249249249241209048241209047,
    0x72b91c8e371385c0df6fb79badc6db6db4d96c35dacd66ab51a6d269345a0cf673399acc65b2992c96431d8cc562b1186c260b0580bf5f2f57abc5dae972b95c2dd6cb55aad166b258ac560af572b95aac55aa954a95429d4ea652a9146a35128540a04fa793a9c4e26d34994ca612e964b255289349a4922904823d1c8d46a31168b45225108843a190a854220d068240a05007f3f1f8fa7c3e1ecf47a3c9e0f0773b1d8ea743a1cce472389c0e06f371b8da6c361acd66a349a4d06833998cc6532990c86331188c26130180be5f2f178ba5c2e16cb65a2d168b2592c160ae572b158aa552a950a8532994ca45228944a250281409e4f279389c4e271349a4d26930984c2612c964b2592c944a25128944a249249249249249249241209048,
    0x72b95c8e371385c0e06fb79badc6e36db4d96c35daed66ab51a6d369345a0cf673399acc65b2994c96431d8cc662b1186c26130580bf5f2f97abc5dae974b95c2dd6cb65aad166b2592c560af57ab95aac55aad54a95429d4ea652a9148a35128542a04fa793a9d4e26d349a4ca612e974b255289449a4922914823d1c8e46a31188b45225128843a190c8542211068241205007f3f9f8fa7d3e1ecf67a3c9e4f0773b9d8ea753a1cce672389c4e06f379b8da6d361b0d66a351a4d2683399ccc6632990c86331988c46130980c05f2f178ba5d2e170b65b2d168b2592c960b0572b958ac552a954a8542994ca65229148a25128940a0502793c9e4e271389c4d269349a4c26130984b2592c964b25928944a25128944a249249249249249249,
    0x73395c8e371385c2e06fb79badd6e36db4d96c361aed66ab51a8d369345a0cf67b399acc65b2d94c96431d8ec662b1186c36130580bf5faf97abc5daed74b95c2dd6eb65aad166b3592c560b057ab95aac562ad54a9542a14ea652a9548a35128942a04fa793c9d4e26d369a4ca6130974b2552a9449a4924914823d1e8e46a35188b45229128843a1d0c8542a1106824120500803f9f8fc7d3e1f0f67a3d1e4f0783b9d8ec753a1d0e672391c4e070379b8dc6d369b0d66b351a8d2683419cce6632994c8643198cc46230980c05f2f978bc5d2e970b85b2d968b4592c964b0582b95cac562b154aa542a150a65329148a45128944a0502813c9e4f279389c4e271349a4d26930984c26130964b2592c964b25928944a25128944a251249249,
    0x73395c8e371389c2e06fb79badd6e36db4d96cb61aed66ab55a8d369345a0d067b399acc6632d94c9643218ec662b1188c36130580c05faf97abc5e2ed74b95c2e16eb65aad168b3592c560b057ab95aad562ad54a954aa14ea65329548a351a8942a04fa7d3c9d4e271369a4ca6530974b2592a9449a4d2491482411e8e47235188b45a2912884421d0c8642a1106834120502803f9fcfc7d3e9f0f67b3d1e4f2783b9dcec753a9d0e673391c4e270379bcdc6e369b0d86b359a8d269341a0ce6633194ca643218cc46230984c0602f97cbc5e2e974b85c2d96cb45a2c964b2582c15cae562b158aa552a150a8532994ca45229144a25128140a04f2793c9e4e271389c4d269349a4d26130984c26130964b2592c964b25928944a25128944a,
    0x73395c8e371b89c2e06fb79bcdd6e36db4da6cb61aed66ab55a8d369345a2d067b399acd6632d94c964b218ec662b1588c36130582c05faf97abd5e2ed74b95cae16eb65aad568b3592c562b057ab95cad562ad54aa54aa14ea75329548a451a8942a05027d3c9d4ea71369a4d26530974ba592a944a24d249148a411e8f47235188c45a2912894421d0e8642a110883412090280401fcfc7e3e9f0f87b3d1e4f2783b9dcec763a9d0e873391c8e270381bcde6e369b4d86b359a8d469349a0ce6733198ca653218cc66231184c2603017cbe5e2f174ba5c2e16cb65a2d164b2592c160ae572b158ac552a954a8542994ca65229148a25128944a0502813c9e4f279389c4e271389a4d269349a4c26130984c26130964b2592c964b2592c944a,
    0x73395c8e471b89c2e06fb7dbcdd6e36db6da6cb61aed66b355a8d369349a2d067b399ccd6632d94ca64b218ec662b1588c36130582c05faf97cbd5e2ed74ba5cae16eb65b2d568b3592c962b057abd5cad562ad56aa54aa150a75329548a451a8942a15027d3c9e4ea71369b4d26530984ba592a954a24d249248a41208f472351a8c45a291489442210e8642a15088341a090281401fcfe7e3e9f0f87b3d1e8f2783c1dcee763a9d4e873399c8e271381c0de6e371b4d86c359acd469349a0d06733998ca6532190c66331188c26130180be5f2f178ba5d2e170b65b2d168b2592c960b0572b95cac562a954aa542a150a65329948a45228944a25028140a04f2793c9e4e271389c4e269349a4d26934984c26130984c26130964b2592c964b,
    0x73395c8e471b89c2e07037dbcdd6e36db6da6cb61aed76b355a8d369b49a2d067b3d9ccd6632d94ca64b218ec66331588c36130982c05faf97cbd5e2ed76ba5cae16eb75b2d568b359ac962b0582bd5cad562b156aa54aa550a7532954aa451a8944a15027d3e9e4ea71389b4d26532984ba592c954a24d269248a45208f472391a8c45a2d148944a210e8643215088441a09048140200fe7e3e9f4f87b3d9e8f2793c1dcee763b1d4e874399c8e471381c0de6f371b4da6c361acd46a349a4d06833998cc6532990c86331988c46130980c05f2f978bc5d2e970b85b2d968b4592c964b0582b95cae562b154aa552a150a8532994ca45229148a25128940a0502813c9e4f2793c9c4e271389c4d269349a4d269349a4c26130984c26130984b] = true := by decide +kernel

theorem rows144 : rows 144 [0x73395cae471b89c2e17037dbcdd6e371b6da6cb61b0d76b355a8d469b49a2d067b3d9ccd6632d96ca64b218ec76331588c361b0982c05fafd7cbd5e2f176ba5cae170b75b2d568b459ac962b1582bd5cad56ab156aa552a550a7532994aa451a8d44a1502813e9e4ea75389b4d26932984ba5d2c954a251269249245208f47a391a8c4622d148a44a210e87432150a8441a0d048140a00fe7e3f1f4f87c3d9e8f4793c1e0ee773b1d4ea74399cce471389c0e06f371b8da6d361acd66a351a4d2683399ccc6632994c8643198cc46130980c05f2f97cbc5e2e974b85c2d96cb45a2d164b2582c15cae572b158ac552a954a8542a14ca65329148a45128944a25028140a0502793c9e4f279389c4e271389c4d269349a4d269349a4c26130984c,
    0x73399cae471b89c4e17037dbcdd6eb71b6da6cb65b0d76b355a8d469b49a2d06833d9ccd6633196ca64b2190c76331588c461b0982c0602fd7cbd5e2f176ba5cae570b75b2d56ab459ac964b1582bd5cae56ab156ab552a550a753a994aa45228d44a150a813e9e4f275389b4da6932984c25d2c954aa51269249245209047a391a8d4622d168a44a211087432190a844220d048140a00fe7f3f1f4fa7c3d9ecf4793c9e0f0773b1d8ea743a1cce472389c4e06f379b8dc6d361b0d66b351a4d2683419cce6633194ca643198cc46230984c0602f97cbc5e2f174ba5c2e16cb65a2d168b2592c160b0572b958ac562a954aa542a150a6532994ca45229144a25128944a050281409e4f2793c9e4f271389c4e271389c4e269349a4d269349a4d,
    0x73b99cae471b89c4e17037dbcde6eb71b6da6d365b0d76b355aad469b49a2d16833d9ccd66b3196ca64b2590c7633158ac461b0982c1602fd7cbd5eaf176ba5d2e570b75b2d96ab459ac964b1582bd5eae56ab158ab552a550a853a994aa55228d44a250a813e9f4f275389c4da6932994c25d2c964aa51269349245229047a391c8d46231168a44a25108743a190a854220d048240a01007f3f1f8fa7c3e1ecf47a3c9e0f0773b9d8ea753a1cce672391c4e070379bcdc6d369b0d86b351a8d269341a0ce6733194ca643218cc66231184c2603017cbe5e2f178ba5d2e170b65b2d168b4592c960b0582b95cae562b158aa552a950a8542994ca65329148a45228944a25128140a0502813c9e4f2793c9e4f271389c4e271389c4e269349a4d,
    0x73b99cae471b8dc4e17037dbede6eb71b6da6d365b0d76b359aad469b49a4d16833d9cce66b3196ca6532590c7633198ac461b0984c1602fd7cbe5eaf176bb5d2e570b75bad96ab459acd64b1582c15eae56ab558ab552a552a853a994ca55228d46a250a81409f4f2753a9c4da6934994c25d2e964aa51289349249229047a3d1c8d46a31168a45225108843a190c854220d068240a05007f3f9f8fa7d3e1ecf67a3c9e4f0783b9d8ec753a1d0e673391c4e270379bcdc6e369b4d86b359a8d469349a0ce6733198ca6532190c66331188c26130180be5f2f178bc5d2e970b85b2d96cb45a2c964b2582c15cae572b158ac552a954a8542a150a6532994ca45229148a25128944a25028140a0502813c9e4f2793c9e4f279389c4e271389c4e,
    0x73b99cae47238dc4e170381bede6eb71b6db6d365b0d76bb59aad469b4da4d16833d9ece66b3196cb6532590c763b198ac461b0d84c1602fd7ebe5eaf176bb5d2e570b85bad96ab45a2cd64b158ac15eae56ab558ab552a952a853a9d4ca55229146a250a85409f4f2793a9c4da6d34994c2612e964aa55289349a4922904823d1c8e46a31168b45225128843a1d0c854221106824120500803f9f8fc7d3e1f0f67a3d1e4f2783b9dcec753a9d0e873391c8e270381bcde6e371b4d86c359acd46a349a0d06733998cc6532990c86331988c46130980c05f2f978bc5e2e974b85c2d96cb65a2d164b2592c160b0572b95cac562b154aa552a150a8542994ca65329148a45228944a25128944a05028140a0502813c9e4f2793c9e4f279389c4e,
    0x73b99cae57238dc4e170381bede6eb71b8db6d365b0d86bb59aad46a34da4d1683419ece66b3198cb6532590c863b198ac46230d84c1603017ebe5eaf178bb5d2e572b85bad96ab55a2cd64b258ac15eae572b558ab55aa952a85429d4ca552a9146a251285409f4fa793a9c4e26d34994ca612e964b255289449a4922914823d1e8e46a31188b4522912884421d0c8542a1106834120502803f9fcfc7d3e9f0f67b3d1e8f2783c1dcec763a9d0e873399c8e271381c0de6e371b4da6c361acd46a349a4d0683399ccc6632994c8643198cc46230984c0602f97cbc5e2f174ba5c2e16cb65b2d168b4592c960b0582b95cae562b158ac552a954a8542a150a6532994ca45229148a45128944a25128940a05028140a050281409e4f2793c9e4f,
    0x73b99cce57238dc4e170b81bede6eb75b8db6d365b2d86bb59aad56a34da4d168b419ece66b3598cb6532592c863b198ac56230d84c160b017ebe5eaf578bb5d2e972b85bad96cb55a2cd66b258ac15eaf572b558ac55aa952a95429d4ca652a9146a35128540a04fa793a9d4e26d349a4ca612e974b2552a9449a492491482411e8e46a35188b45a2912894421d0c8642a110883412090280401fcfc7e3e9f0f87b3d1e8f2793c1dcee763a9d4e874399c8e471389c0de6f371b8da6d361acd66a351a4d2683419cce6633194ca643218cc66231184c2603017cbe5e2f178ba5d2e170b85b2d968b45a2c964b2582c160ae572b958ac562a954aa552a150a8542994ca65329948a45229148a25128944a25128944a05028140a05028140a04f,
    0x73b9dcce57238dc4e270b81bede6f375b8db6d369b2d86bb59acd56a34da4d168b419ece66b3598cb6532992c863b198cc56230d84c260b017ebe5f2f578bb5dae972b85badd6cb55a2d166b258ac160af572b55aac55aa954a95429d4ea652a9148a35128542a04fa793c9d4e26d369a4ca6130974b2592a9449a4d249148a411e8e47235188c45a2914894421d0e8642a15088341a090281401fcfe7e3e9f4f87b3d9e8f4793c1e0ee763b1d4ea74399cce472389c0e06f379b8dc6d361b0d66b351a8d269341a0ce6733194ca6432190c66331188c26130180be5f2f178bc5d2e970b85c2d96cb65a2d164b2592c160b0572b95cae562b158aa552a954a8542a150a8532994ca65329148a45229148a25128944a25128944a25028140a050] = true := by decide +kernel

theorem rows152 : rows 152 [0x73b9dcce57238dc6e270b81bedf6f375b8db6db69b2d86bb59acd56a34da4d268b419ece6733598cb6532992c863b1d8cc56230d86c260b017ebf5f2f578bc5dae972b85c2dd6cb55aad166b258ac560af572b95aac55aad54a9542a14ea652a9548a35128942a04fa7d3c9d4e271369a4ca6530974ba592a944a24d249248a411e8f472351a8c45a291489442210e8643215088441a09048140200fe7e3f1f4f87c3d9ecf4793c9e0ee773b1d8ea743a1cce672389c4e070379b8dc6d369b0d86b359a8d469341a0ce6733198ca6532190c66331988c46130980c05f2f97cbc5e2e974ba5c2e16cb65b2d168b4592c964b0582c15cae572b158ac562a954aa552a150a8542a14ca6532994ca65229148a45229148a45128944a25128944a251,
    0x7439dcce572391c6e270b81c0df6f375b8db6db69b2d86bb5dacd56a34da6d268b419ecf6733598cb65b2992c86431d8cc56231186c260b0180bf5f2f57abc5dae972b95c2dd6cb65aad166b2592c560af57ab95aac562ad54a954aa14ea65329548a351a8942a05027d3c9d4ea71369a4d26530984ba592a954a24d269248a41208f472391a8c45a2d148944a210e87432150a8441a0d048140a00fe7f3f1f4fa7c3e1ecf47a3c9e0f0773b9d8ea753a1d0e672391c4e270379bcdc6e369b4d86c359a8d469349a0d06733998cc6532990c8633198cc46230984c0602f97cbe5e2f174ba5d2e170b65b2d968b45a2c964b2582c160b0572b95cac562b158aa552a954aa542a150a8542994ca6532994ca65229148a45229148a45228944a251,
    0x7439dcce572b91c6e270b81c0df6f375b8dc6db69b2d86c35dacd56a351a6d268b41a0cf6733598cc65b2992c86431d8cc562b1186c260b0580bf5f2f57abc5dae974b95c2dd6eb65aad166b3592c560b057ab95aad562ad54aa54aa14ea75329548a451a8942a15027d3c9e4ea71369b4d26532984ba592c954a24d269248a45208f47a391a8c4622d148a44a211087432190a844220d048240a01007f3f1f8fa7d3e1ecf67a3c9e4f0783b9d8ec753a1d0e673391c8e270381bcde6e371b4da6c359acd46a349a4d0683399ccc6632994c8643198cc66231184c2603017cbe5f2f178ba5d2e970b85c2d96cb65a2d168b2592c960b0582c15cae572b158ac562b154aa552a954a8542a150a8542994ca6532994ca65329148a45229148a452,
    0x7439dcce672b91c6e270b85c0df6f375badc6db69b2d96c35dacd56ab51a6d268b45a0cf673359acc65b2992c96431d8cc662b1186c26130580bf5f2f97abc5daed74b95c2dd6eb65aad168b3592c562b057ab95cad562ad56aa54aa150a7532954aa451a8944a15027d3e9e4ea71389b4d26932984ba5d2c954a251269249245209047a391a8d4622d168a44a25108743a190a854220d068240a05007f3f9f8fa7d3e1f0f67a3d1e4f0783b9dcec753a9d0e873399c8e271381c0de6f371b4da6c361acd66a351a4d2683419cce6633194ca643218cc66331188c26130180c05f2f978bc5e2e974b85c2e16cb65b2d168b4592c964b2582c160b0572b95cae562b158ac552a954aa552a950a8542a150a8542994ca6532994ca65329948a452,
    0x7439dcce672b91c6e271385c0df6f379badc6db69b4d96c35dacd66ab51a6d269345a0cf673399acc65b2994c96431d8ec662b1186c36130580bf5faf97abc5e2ed74b95c2e16eb65aad568b3592c962b057abd5cad562b156aa54aa550a7532994aa451a8d44a1502813e9e4ea75389b4da6932984c25d2c954aa51269349245229047a391c8d46231168a45225108843a190c854221106824120500803f9f8fc7d3e9f0f67b3d1e4f2783c1dcec763a9d4e873399c8e471389c0e06f371b8da6d361b0d66b351a8d269341a0ce6733198ca6532190c66331988c46130980c0602f97cbc5e2f174ba5d2e170b85b2d96cb45a2d164b2592c960b0582c15cae572b958ac562b158aa552a954aa552a150a8542a150a8542a14ca6532994ca653,
    0x7439dcee672b91c6e371385c0df6fb79badc6db6db4d96c35daed66ab51a6d369345a0cf67b399acc65b2d94c96431d8ec662b1188c36130580c05faf97abd5e2ed74b95cae16eb65b2d568b359ac962b0582bd5cad56ab156aa54aa550a753a994aa45228d44a150a813e9e4f275389b4da6932994c25d2c964aa51289349249229047a3d1c8d46a31168b45225128843a1d0c8542a1106834120502803f9fcfc7e3e9f0f87b3d1e8f2793c1dcee763b1d4e874399cce472389c0e06f379b8dc6d369b0d86b359a8d469349a0d06733998cc6532990c8633198cc46230984c0603017cbe5f2f178ba5d2e970b85c2d96cb65b2d168b4592c964b2582c160b0572b95cae572b158ac562b154aa552a954aa552a950a8542a150a8542a150a653,
    0x743a1cee672b91c8e371385c0e06fb79badc6e36db4d96c361aed66ab51a8d369345a0d067b399acc6632d94c9643218ec662b1588c36130582c05faf97cbd5e2ed74ba5cae16eb75b2d568b459ac962b1582bd5cad56ab156aa552a550a753a994aa55228d44a250a813e9f4f275389c4da6934994c25d2e964aa55289349a4922904823d1c8e46a31188b4522912884421d0c8642a110883412090280401fcfe7e3e9f4f87b3d9e8f4793c1e0ee773b1d4ea743a1cce672389c4e070379bcdc6e369b4d86c359acd46a349a4d0683399ccc6632994c8643198cc66231184c26130180be5f2f978bc5e2e974ba5c2e170b65b2d968b45a2d164b2592c960b0582c15cae572b95cae562b158ac562b154aa552a954aa552a954a8542a150a854,
    0x74ba1cee672b95c8e371385c2e06fb79badd6e36db4d96cb61aed66ab55a8d369345a2d067b399acd6632d94c964b218ec66331588c36130982c05fafd7cbd5e2ed76ba5cae170b75b2d56ab459ac964b1582bd5cae56ab156ab552a550a853a994ca55228d46a250a81409f4f2753a9c4da6d34994c2612e964b255289449a4922914823d1e8e46a35188b45a2912894421d0e8642a15088341a09028140200fe7e3f1f4f87c3d9ecf4793c9e0f0773b1d8ea753a1cce672391c4e270381bcde6e369b4d86c359acd46a349a4d0683419cce6633194ca6432190c66331188c26130980c0602f97cbc5e2f174ba5d2e170b85c2d96cb65a2d168b4592c964b2582c160b0582b95cae572b95cac562b158ac562b158aa552a954aa552a954aa54] = true := by decide +kernel

theorem rows160 : rows 160 [0x74ba1cee673395c8e371389c2e06fb79badd6e36db4d96cb61aed66b355a8d369349a2d067b399ccd6632d94ca64b218ec76331588c361b0982c0602fd7cbd5e2f176ba5cae570b75b2d96ab459ac964b1582bd5eae56ab158ab552a552a853a9d4ca55229146a250a85409f4f2793a9c4e26d34994ca612e974b2552a9449a492491482411e8e47235188c45a291489442210e8643215088441a09048140200fe7f3f1f4fa7c3e1ecf47a3c9e4f0773b9d8ec753a1d0e673391c8e271381bcde6e371b4da6c361acd66a351a4d268341a0ce6733198ca6532190c86331988c46230984c0603017cbe5f2f178bc5d2e974b85c2e16cb65b2d968b45a2d164b2592c964b0582c160b0572b95cae572b95cac562b158ac562b158ac552a954aa55,
    0x74ba1cee773395c8e371389c2e06fb79bcdd6e36db4da6cb61aed66b355a8d369b49a2d067b3d9ccd6632d96ca64b2190c76331588c461b0982c1602fd7cbd5eaf176ba5d2e570b75bad96ab459acd64b1582c15eae56ab558ab552a952a85429d4ca552a9146a251285409f4fa793a9d4e26d349a4ca6130974b2592a9449a4d249148a411e8f472351a8c45a2d148944a210e87432150a8441a0d048140a01007f3f1f8fa7c3e1ecf67a3c9e4f0783b9dcec753a9d0e873399c8e471381c0de6f371b8da6d361b0d66b351a8d269341a0d06733998cc6532990c8643198cc46231184c26130180be5f2f978bc5e2e974ba5d2e170b85b2d96cb65a2d168b45a2c964b2592c960b0582c160b0572b95cae572b95cae562b158ac562b158ac56,
    0x74ba1cee773395c8e371b89c2e06fb7dbcdd6e36db6da6cb61aed76b355a8d469b49a2d06833d9ccd6633196ca64b2190c7633158ac461b0982c1602fd7cbe5eaf176bb5d2e570b85bad96ab45a2cd64b158ac15eae572b558ab55aa952a95429d4ca652a9146a35128540a04fa793c9d4e26d369a4ca6530974b2592a944a24d249248a41208f472391a8c4622d148a44a211087432190a844220d048240a05007f3f9f8fa7d3e1f0f67a3d1e4f2783c1dcec763a9d4e874399c8e471389c0e06f379b8dc6d369b0d86b359a8d469349a0d0683399ccc6632994c8643218cc66331188c26130980c0602f97cbe5e2f178ba5d2e974b85c2e16cb65b2d96cb45a2d168b2592c964b2592c160b0582c160b0572b95cae572b95cae572b958ac56,
    0x74ba1d0e773395c8e471b89c2e07037dbcdd6e371b6da6cb61b0d76b355a8d469b49a2d16833d9ccd66b3196ca64b2590c7633198ac461b0984c1602fd7ebe5eaf178bb5d2e572b85bad96ab55a2cd64b258ac15eaf572b558ac55aa952a95429d4ea652a9148a35128542a04fa7d3c9d4e271369a4d26530974ba592a954a24d269248a45208f47a391a8d4622d168a44a25108743a190a854220d06824120500803f9f8fc7d3e9f0f67b3d1e8f2783c1dcee763b1d4ea74399cce472389c4e070379bcdc6e369b4d86c359acd46a349a4d0683419cce6633194ca6532190c66331988c46130984c0603017cbe5f2f178bc5e2e974ba5d2e170b85c2d96cb65b2d168b45a2d164b2592c964b2592c160b0582c160b0582b95cae572b95cae57,
    0x74ba5d0e773395cae471b89c2e17037dbcdd6eb71b6da6cb65b0d76b355aad469b49a4d16833d9cce66b3196ca6532590c763b198ac461b0d84c1603017ebe5eaf578bb5d2e572b85bad96cb55a2cd66b258ac160af572b55aac55aa954a9542a14ea652a9548a35128942a05027d3c9d4ea71369b4d26530984ba592c954a251269249245209047a391c8d46231168a45225108843a190c854221106834120502803f9fcfc7e3e9f0f87b3d9e8f2793c1e0ee773b1d4ea743a1cce672391c4e270381bcde6e371b4da6c361acd66a351a4d268341a0ce6733198ca6532990c8633198cc46231184c26130180c05f2f97cbc5e2f178ba5d2e974b85c2e170b65b2d96cb65a2d168b45a2c964b2592c964b2592c160b0582c160b0582c160ae57,
    0x753a5d0e773399cae471b89c4e17037dbcde6eb71b6da6d365b0d76b359aad469b4da4d16833d9ece66b3196cb6532590c863b198ac46230d84c160b017ebe5f2f578bb5d2e972b85badd6cb55a2d166b258ac560af572b95aac55aad54a954aa14ea65329548a351a8942a15027d3c9e4ea71389b4d26532984ba5d2c954aa51269349245229047a3d1c8d46a31168b45225128843a1d0c8542a110683412090280401fcfe7e3e9f4f87c3d9e8f4793c9e0f0773b1d8ea753a1d0e673391c8e271381c0de6f371b8da6d361b0d66b351a8d269341a0d06733998cc6632994c8643218cc66231188c26130980c0603017cbe5f2f178bc5e2e974ba5d2e170b85c2d96cb65b2d96cb45a2d168b45a2c964b2592c964b2592c964b0582c160b058,
    0x753a5d0e773b99cae471b8dc4e17037dbede6eb71b6db6d365b0d76bb59aad469b4da4d1683419ece66b3198cb6532592c863b198ac56230d84c260b017ebf5f2f578bb5dae972b85c2dd6cb55aad166b2592c560af57ab95aac562ad54aa54aa14ea75329548a451a8944a15027d3e9e4ea75389b4d26932984c25d2c964aa51289349249229047a3d1c8e46a31188b4522912884421d0c8642a11088341a09028140200fe7e3f1f4fa7c3d9ecf47a3c9e4f0773b9d8ec753a9d0e873399c8e271381c0de6f371b8da6d369b0d86b359a8d469349a0d0683399ccc6633194ca6432190c66331988c46230984c26030180be5f2f97cbc5e2f178ba5d2e974b85c2e170b85b2d96cb65b2d968b45a2d168b45a2d164b2592c964b2592c964b258,
    0x753a5d0e873b99cae47238dc4e170381bede6eb71b8db6d365b0d86bb59aad46a34da4d168b419ece66b3598cb6532992c863b198cc56230d86c260b0180bf5f2f578bc5dae972b95c2dd6cb65aad166b3592c560b057ab95aad562ad56aa54aa150a7532954aa451a8d44a1502813e9e4f275389b4da6932994c25d2e964aa55289349a4922904823d1c8e46a35188b45a2912894421d0e8642a15088441a09048140a00fe7f3f1f8fa7c3e1ecf67a3c9e4f0783b9dcec763a9d4e873399c8e471389c0e06f379b8dc6d369b4d86c359acd46a349a4d2683419cce6633198ca6532990c8633198cc46231184c26130980c0602f97cbe5f2f178bc5e2e974ba5d2e970b85c2e170b65b2d96cb65b2d968b45a2d168b45a2d168b4592c964b259] = true := by decide +kernel

theorem rows168 : rows 168 [0x753a5d2e873b99cae57238dc4e170b81bede6eb75b8db6d365b2d86bb59aad56a34da4d268b419ece6733598cb65b2992c863b1d8cc56231186c260b0580bf5f2f57abc5dae974b95c2dd6eb65aad168b3592c562b057ab95cad562b156aa54aa550a7532994aa45228d44a150a813e9f4f275389c4da6934994c2612e964b255289349a4922914823d1e8e46a35188c45a291489442210e86432150a8441a0d048140a01007f3f1f8fa7d3e1f0f67a3d1e4f2783c1dcee763a9d4e874399cce472389c4e070379bcdc6e369b4d86c361acd66a351a4d269341a0ce6733998cc6532994c8643218cc66331188c46130984c06030180be5f2f97cbc5e2f178bc5d2e974ba5d2e170b85c2e170b65b2d96cb65b2d96cb45a2d168b45a2d168b45a,
    0x753a5d2e873b99cae57238dc4e270b81bede6f375b8db6d369b2d86bb59acd56a34da6d268b419ecf6733598cc65b2992c86431d8cc562b1186c260b0580bf5f2f97abc5daed74b95c2e16eb65aad568b3592c962b057abd5cad56ab156aa552a550a753a994aa55228d44a250a81409f4f2753a9c4da6d34994ca612e974b255289449a492491482411e8e472351a8c45a2d148944a210e87432190a844220d048240a05007f3f9f8fc7d3e9f0f67b3d1e8f2793c1dcee763b1d4ea743a1cce672391c4e270381bcde6e371b4da6c361b0d66b351a8d269349a0d0673399ccc6633194ca6432190c66331988c46231184c26130180c0602f97cbe5f2f178bc5e2f174ba5d2e974ba5c2e170b85c2e170b65b2d96cb65b2d96cb65b2d168b45a,
    0x753a9d2e873b99cce57238dc4e270b81bedf6f375b8db6db69b2d86bb5dacd56a351a6d268b41a0cf6733598cc65b2992c96431d8cc662b1186c26130580bf5faf97abc5e2ed74b95cae16eb65b2d568b359ac962b0582bd5cad56ab156ab552a550a853a994ca55228d46a250a85409f4f2793a9c4e26d349a4ca6130974b2552a9449a4d249148a411e8f472391a8c4622d148a44a211087432190a854220d06824120500803f9fcfc7d3e9f0f87b3d9e8f4793c1e0ee773b1d8ea753a1d0e673391c8e271381c0de6f371b8da6d361b0d86b359a8d46a349a4d0683419cce6633198ca6532990c8643198cc66231188c46130984c06030180be5f2f97cbe5e2f178bc5e2e974ba5d2e974ba5c2e170b85c2e170b85c2d96cb65b2d96cb65b,
    0x75ba9d2e873b9dcce57238dc6e270b81c0df6f375b8dc6db69b2d86c35dacd56a351a6d268b45a0cf673359acc65b2994c96431d8ec662b1186c36130580c05faf97abd5e2ed74ba5cae16eb75b2d568b459ac962b1582bd5cae56ab158ab552a552a853a9d4ca55229146a251285409f4fa793a9d4e26d369a4ca6130974b2592a944a24d249248a41208f472391a8d4622d168a44a25108743a190c85422110683412050280401fcfc7e3e9f4f87c3d9e8f4793c9e0f0773b9d8ec753a9d0e873399c8e471389c0e06f379b8dc6d369b4d86c359acd46a351a4d268341a0ce6733998cc6532994c86432190c66331988c46230984c26130180c0603017cbe5f2f97cbc5e2f178bc5e2e974ba5d2e974ba5c2e170b85c2e170b85c2e16cb65b,
    0x75ba9d2e87439dcce572391c6e270b81c0df6f375badc6db69b2d96c35dacd56ab51a6d269345a0cf673399acc65b2d94c9643218ec662b1188c36130582c05faf97cbd5e2ed76ba5cae170b75b2d56ab459ac964b1582bd5eae56ab558ab552a952a85429d4ca552a9146a35128540a04fa793c9d4e271369a4ca6530974ba592a954a24d269248a45208f47a391c8d46231168a45225108843a1d0c8542a110883412090281401fcfe7e3f1f4fa7c3d9ecf47a3c9e4f0783b9dcec763a9d4e874399cce472389c4e070379bcdc6e369b4da6c361acd66a351a8d269341a0d0673399ccc6633194ca6532190c8633198cc66231188c26130984c26030180c05f2f97cbe5f2f978bc5e2f178bc5d2e974ba5d2e974ba5d2e970b85c2e170b85c,
    0x75ba9d2e97439dcce572b91c6e270b85c0df6f379badc6db69b4d96c35dacd66ab51a6d369345a0cf67b399acc6632d94c964b218ec662b1588c36130982c05fafd7cbd5e2f176ba5cae570b75b2d96ab459acd64b1582c15eae572b558ab55aa952a85429d4ca652a9148a35128542a04fa7d3c9d4ea71369a4d26530984ba592c954a251269249245209047a3d1c8d46a31168b4522512884421d0c8642a15088341a09048140200fe7f3f1f8fa7c3e1ecf67a3d1e4f2783c1dcec763a9d4e874399cce472391c4e270381bcde6e371b4da6d361b0d66b359a8d469349a4d0683419cce6633198ca6532994c8643218cc66331988c46231184c26130980c06030180be5f2f97cbe5f2f178bc5e2f178bc5e2e974ba5d2e974ba5d2e974ba5c,
    0x75ba9d4e97439dcce672b91c6e271385c0df6fb79badc6db6db4d96c35daed66ab51a8d369345a0d067b399acd6632d94c964b218ec66331588c361b0982c0602fd7cbd5eaf176ba5d2e570b75bad96ab45a2cd64b158ac15eaf572b558ac55aa952a95429d4ea652a9548a35128942a05027d3c9e4ea71369b4d26532984ba5d2c954aa51269349245229047a3d1c8e46a31188b4522912894421d0e8642a15088441a0d048140a01007f3f1f8fa7d3e1f0f67b3d1e8f2783c1dcee763b1d4ea743a1cce672391c4e271381c0de6f371b8da6d369b0d86b359acd46a349a4d268341a0ce6733998cc6632994ca6432190c8633198cc66231188c46130984c26130180c0603017cbe5f2f97cbe5f2f178bc5e2f178bc5e2f178ba5d2e974ba5d,
    0x75badd4e97439dcee672b91c6e371385c0df6fb79badc6e36db4d96c361aed66ab55a8d369345a2d067b399ccd6632d94ca64b218ec76331588c461b0982c1602fd7cbe5eaf176bb5d2e570b85bad96ab55a2cd64b258ac160af572b55aac55aa954a9542a14ea652a9548a351a8942a15027d3e9e4ea71389b4d26932984c25d2c964aa5128934924922904823d1e8e46a35188b45a291489442210e86432150a8441a0d048240a05007f3f9f8fc7d3e9f0f87b3d1e8f2793c1e0ee773b1d8ea753a1d0e673391c8e271389c0e06f379b8dc6e369b4d86c359acd66a351a8d269341a0d0673399ccc6633198ca6532990c8643218cc66331988c46231184c26130984c26030180c0603017cbe5f2f97cbe5f2f978bc5e2f178bc5e2f178bc5e] = true := by decide +kernel

theorem rows176 : rows 176 [0x763add4e9743a1cee672b91c8e371385c0e06fb79badd6e36db4d96cb61aed66b355a8d369349a2d067b3d9ccd6632d96ca64b2190c7633158ac461b0984c1602fd7ebe5eaf178bb5d2e572b85bad96cb55a2cd66b258ac560af572b95aac55aad54a954aa14ea65329548a451a8944a1502813e9e4ea75389b4da6932994c25d2e964aa55289349a492291482411e8e47235188c45a29148944a210e87432190a844220d06824120500803f9fcfc7e3e9f4f87b3d9e8f4793c9e0f0773b9d8ec753a9d0e873399c8e471389c4e070379bcdc6e371b4da6c361b0d66b351a8d469349a4d0683419cce6733198cc6532994ca6432190c8633198cc66231188c46230984c26130984c06030180c0603017cbe5f2f97cbe5f2f97cbe5e2f178bc5e,
    0x763add4e974ba1cee672b95c8e371385c2e06fb79bcdd6e36db4da6cb61aed76b355a8d369b49a2d06833d9ccd6633196ca64b2590c7633198ac461b0d84c1603017ebe5eaf578bb5d2e972b85badd6cb55a2d166b2592c560af57ab95aac562ad54aa54aa14ea7532954aa451a8d44a1502813e9e4f275389c4da6934994c2612e964b255289449a49249148a411e8f472351a8c45a2d148a44a21108743a190a85422110682412050280401fcfe7e3e9f4f87c3d9ecf47a3c9e4f0783b9dcec763a9d4e874399cce472389c4e270381bcde6e371b8da6d361b0d86b359acd46a349a4d268341a0d0673399ccc6633194ca6532990c8643218cc6633198cc46231188c46130984c26130984c06030180c06030180c05f2f97cbe5f2f97cbe5f,
    0x763add4ea74ba1cee673395c8e371389c2e06fb7dbcdd6e36db6da6cb61aed76b355a8d469b49a2d16833d9ccd66b3196ca6532590c763b198ac46230d84c160b017ebe5f2f578bb5dae972b85c2dd6cb55aad166b3592c560b057ab95aad562ad56aa54aa150a7532994aa45228d44a150a813e9f4f2753a9c4da6d34994ca612e974b2552a9449a4d249148a41208f472391a8c4622d168a44a25108843a190c8542a11068341209028140200fe7e3f1f4fa7c3e1ecf67a3d1e4f2783c1dcee763b1d4ea743a1cce672391c4e271381c0de6f379b8dc6d369b4d86c359acd66a351a8d269349a0d0683399cce6733198cc6532994ca6432190c8643198cc66331988c46231188c46130984c26130984c06030180c06030180c0603017cbe5f,
    0x763add6ea74ba1cee773395c8e371b89c2e06fb7dbcdd6e371b6da6cb61b0d76b355aad469b49a4d16833d9cce66b3196cb6532590c863b198ac56230d84c260b017ebf5f2f578bc5dae972b95c2dd6cb65aad168b3592c562b057ab95cad562b156aa54aa550a753a994aa55228d44a250a81409f4f2793a9c4e26d349a4ca6130974b2592a944a24d249248a45208f47a391a8d46231168a45225128843a1d0c8642a11088341a09048140200fe7f3f1f8fa7d3e1f0f67b3d1e8f2793c1e0ee773b1d8ea753a1d0e673391c8e471389c0e06f379bcdc6e369b4da6c361b0d66b351a8d469349a4d268341a0ce6733998cc6633194ca6532990c86432190c6633198cc66331188c46231188c26130984c26130984c26130180c06030180c060,
    0x763b1d6ea74ba1d0e773395c8e471b89c2e07037dbcdd6eb71b6da6cb65b0d76b359aad469b4da4d16833d9ece66b3198cb6532592c863b198cc56230d86c260b0180bf5f2f57abc5dae974b95c2dd6eb65aad568b3592c962b057abd5cad56ab156aa552a550a853a994ca55228d46a250a85409f4fa793a9d4e26d369a4ca6530974ba592a954a24d269249245209047a391c8d46a31168b4522912884421d0e8642a15088441a0d048140a01007f3f9f8fc7d3e9f0f87b3d1e8f2793c1e0ee773b9d8ec753a9d0e873399c8e472389c4e070379bcde6e371b8da6d361b0d86b359acd46a351a4d269341a0d0683399cce6633198cc6532994ca6532190c8643218cc6633198cc66231188c46231188c46130984c26130984c26130984c060,
    0x763b1d6ea74ba5d0e773395cae471b89c2e17037dbcde6eb71b6da6d365b0d76bb59aad469b4da4d1683419ece66b3598cb6532992c863b1d8cc56231186c260b0580bf5f2f97abc5daed74b95c2e16eb65aad568b359ac962b0582bd5cae56ab156ab552a552a853a9d4ca55229146a25128540a04fa793c9d4e271369a4d26530984ba592c954a251269349245229047a3d1c8e46a31188b452291289442210e86432150a8441a0d048240a0500803f9fcfc7d3e9f0f87b3d9e8f4793c9e0f0773b9d8ec763a9d4e874399cce472391c4e270381c0de6f371b8dc6d369b4d86c359acd66a351a8d469349a4d068341a0ce673399ccc6633198ca6532994ca6432190c8643198cc6633198cc66231188c46231188c46231184c26130984c261,
    0x76bb1d6ea753a5d0e773399cae471b89c4e17037dbede6eb71b6db6d365b0d86bb59aad46a34da4d168b419ece6733598cb65b2992c86431d8cc562b1186c26130580bf5faf97abc5e2ed74b95cae16eb65b2d568b459ac962b1582bd5eae56ab158ab552a952a85429d4ca552a9146a35128542a04fa7d3c9d4ea71369b4d26532984ba5d2c954aa5128934924922904823d1c8e46a35188b45a291489442210e87432190a844220d06824120502803f9fcfc7e3e9f4f87c3d9ecf47a3c9e4f0783b9dcec763b1d4ea743a1cce672391c8e271381c0e06f379b8dc6e369b4da6c361b0d66b359a8d46a349a4d269341a0d0683399cce6733198cc6632994ca6532994c86432190c8643198cc6633198cc66331988c46231188c46231188c462,
    0x76bb1d6eb753a5d0e773b99cae471b8dc4e170381bede6eb71b8db6d365b2d86bb59aad56a34da4d268b419ecf6733598cc65b2992c96431d8cc662b1186c36130580c05faf97abd5e2ed74ba5cae16eb75b2d56ab459ac964b1582c15eae56ab558ab55aa952a95429d4ca652a9148a35128942a05027d3c9e4ea71389b4d26932984c25d2c964aa51289349a4922914823d1e8e47235188c45a2d148944a21108743a190a85422110683412090280401fcfe7e3f1f4fa7c3e1ecf67a3d1e4f2783c1dcee763b1d8ea753a1d0e673399c8e471389c4e070379bcde6e371b8da6d361b0d86c359acd66a351a8d269349a4d068341a0ce673399ccc6633198cc6532994ca6532990c86432190c8643198cc6633198cc6633198cc66231188c462] = true := by decide +kernel

theorem rows184 : rows 184 [0x76bb1d6eb753a5d0e873b99cae47238dc4e170b81bede6eb75b8db6d369b2d86bb59acd56a34da6d268b41a0cf673359acc65b2994c96431d8ec662b1188c36130582c05faf97cbd5e2ed76ba5cae170b75b2d96ab459acd64b158ac15eae572b558ac55aa954a95429d4ea652a9548a351a8942a15027d3e9e4ea75389b4da6932994c25d2e964aa55289449a492491482411e8f472351a8c4622d148a44a25108843a190c8542a11088341209028140200fe7f3f1f8fa7d3e1f0f67b3d1e8f2793c1e0ee773b1d8ec753a9d0e873399cce472389c4e270381bcde6f371b8dc6d369b4d86c361acd66b351a8d46a349a4d269341a0d0683399cce6733998cc6633198ca6532994ca6532990c86432190c86432190c6633198cc6633198cc663,
    0x76bb1d8eb753a5d2e873b99cae57238dc4e270b81bede6f375b8db6db69b2d86bb5dacd56a351a6d268b45a0cf673399acc65b2d94c96431d8ec662b1588c36130982c05fafd7cbd5e2f176ba5cae570b75bad96ab45a2cd64b258ac15eaf572b55aac55aad54a9542a14ea65329548a451a8944a1502813e9e4f275389c4da6934994c2612e964b2552a9449a4d249148a41208f472391a8d4622d168a45225108843a1d0c8642a15088341a09048140a01007f3f9f8fc7d3e9f0f87b3d9e8f4793c9e0f0773b9d8ec763a9d4e874399cce672391c4e271381c0e06f379bcdc6e369b4da6d361b0d86b359acd46a351a8d269349a4d068341a0ce673399cce6733198cc6633198ca6532994ca6532990c86432190c86432190c8643198cc663,
    0x76bb5d8eb753a9d2e873b99cce57238dc4e270b81bedf6f375b8dc6db69b2d86c35dacd56ab51a6d269345a0cf67b399acc65b2d94c9643218ec66331588c361b0982c0602fd7cbd5eaf176ba5d2e570b85bad96ab55a2cd66b258ac160af572b95aac55aad54a954aa14ea7532954aa451a8d44a150a813e9f4f2753a9c4da6d34994ca612e974b2592a944a24d249248a45208f47a391c8d46231168b4522512884421d0e8642a15088441a0d048240a0500803f9fcfc7e3e9f4f87c3d9ecf47a3c9e4f0783b9dcec763b1d4ea743a1d0e673391c8e471389c0e070379bcde6e371b8da6d369b0d86c361acd66b351a8d46a349a4d269341a0d0683419cce673399cce6633198cc6633198ca6532994ca6532994ca6432190c86432190c864,
    0x773b5d8eb75ba9d2e873b9dcce57238dc6e270b81c0df6f375b8dc6db69b2d96c35dacd66ab51a6d369345a0d067b399acc6632d94c964b218ec66331588c461b0982c1602fd7cbe5eaf176bb5d2e572b85bad96cb55a2d166b258ac560af57ab95aac562ad54aa54aa150a7532994aa45228d44a250a81409f4f2793a9c4e26d349a4ca6130974b2592a954a24d269249245209047a3d1c8d46a31188b452291289442210e86432150a844220d06824120502803f9fcfc7e3e9f4f87c3e1ecf67a3d1e4f2783c1dcee773b1d8ea753a1d0e873399c8e472389c4e270381c0de6f371b8dc6e369b4da6c361b0d66b359acd46a351a8d269349a4d268341a0d0683399cce673399ccc6633198cc6633198ca6532994ca6532994ca6532994c864,
    0x773b5d8eb75ba9d2e87439dcce572391c6e270b85c0df6f375badc6db69b4d96c35daed66ab51a8d369345a0d067b399acd6632d94ca64b218ec7633158ac461b0984c1602fd7ebe5eaf178bb5d2e972b85badd6cb55aad166b2592c560b057ab95aad562ad56aa54aa550a753a994aa55228d46a250a85409f4fa793a9d4e26d369a4ca6530974ba592c954a251269349245229047a3d1c8e46a35188b45a291489442210e87432190a85422110683412050280401fcfe7e3f1f4fa7c3e1ecf67b3d1e8f2793c1e0ee773b9d8ec753a9d0e874399cce672391c4e271381c0e06f379bcdc6e371b4da6d369b0d86c359acd66b351a8d46a351a4d269349a4d068341a0d0673399cce673399ccc6633198cc6633198cc6633194ca6532994ca65,
    0x773b5d8ec75ba9d2e97439dcce572b91c6e271385c0df6f379badc6db6db4d96c361aed66ab55a8d369345a2d067b399ccd6632d96ca64b2190c7633198ac461b0d84c1603017ebe5eaf578bb5dae972b85c2dd6cb65aad166b3592c562b057ab95cad562b156aa552a550a853a994ca55229146a25128540a04fa793c9d4e271369a4d26530984ba5d2c954aa5126934924922904823d1e8e46a35188c45a2d148944a21108743a190c8542a11068341209028140200fe7f3f1f8fa7d3e1f0f67b3d9e8f4793c9e0f0773b9dcec763a9d4ea743a1cce673391c8e471389c4e070381bcde6f371b8dc6d369b4da6c361b0d66b359acd66a351a8d469349a4d269349a0d068341a0d0673399cce673399cce6733198cc6633198cc6633198cc65,
    0x773b5daec75ba9d4e97439dcce672b91c6e371385c0df6fb79badc6e36db4d96cb61aed66b355a8d369349a2d067b3d9ccd6633196ca64b2590c7633198ac46230d84c160b017ebe5f2f578bc5dae972b95c2dd6eb65aad168b3592c962b057abd5cad56ab156ab552a552a853a9d4ca552a9146a35128542a04fa7d3c9d4ea71369b4d26532984c25d2c964aa51289349a492291482411e8e472351a8c4622d148a44a25108843a1d0c8542a11088341a09048140a01007f3f9f8fc7d3e9f0f87b3d9ecf47a3c9e4f0783b9dcee763b1d4ea753a1d0e873399c8e472389c4e270381c0de6f379b8dc6e371b4da6d369b0d86c361acd66b359a8d46a351a8d269349a4d269341a0d068341a0d0673399cce673399cce673399ccc6633198cc66,
    0x773b9daec75badd4e97439dcee672b91c8e371385c0e06fb79badd6e36db4da6cb61aed66b355a8d369b49a2d06833d9ccd66b3196ca6532590c763b198ac56230d84c260b017ebf5f2f57abc5dae974b95c2e16eb65aad568b359ac962b0582bd5cae56ab158ab552a952a85429d4ca652a9148a35128942a05027d3c9e4ea71389b4d26932994c25d2e964aa55289449a49249148a411e8f472391a8d4622d168a45225128843a1d0c8642a15088441a0d048240a0500803f9fcfc7e3e9f4f87c3d9ecf67a3d1e4f2783c1e0ee773b1d8ec753a9d0e874399cce672391c8e271389c0e070379bcde6e371b8dc6d369b4da6c361b0d86b359acd66b351a8d46a351a4d269349a4d269341a0d068341a0d0683419cce673399cce673399cce67] = true := by decide +kernel

theorem rows192 : rows 192 [0x77bb9daec763add4e9743a1cee672b95c8e371385c2e06fb79bcdd6e36db6da6cb61aed76b355a8d469b49a2d16833d9cce66b3196cb6532590c863b198cc56230d86c260b0180bf5f2f97abc5daed74b95c2e16eb65b2d568b459ac962b1582bd5eae56ab558ab55aa952a95429d4ca652a9148a351a8942a15027d3e9e4ea75389b4da6934994c2612e964b2552a9449a4d249248a41208f47a391a8d46231168b4522912884421d0e86432150a844220d0682412050280401fcfe7e3f1f4fa7c3e1ecf67b3d1e8f2793c1e0f0773b9d8ec763a9d4e8743a1cce673391c8e471389c4e070381bcde6f379b8dc6e371b4da6d369b0d86c361acd66b359acd66a351a8d46a351a4d269349a4d269341a0d068341a0d068341a0d0683399cce67,
    0x77bb9daed763add4e974ba1cee673395c8e371389c2e06fb7dbcdd6e371b6da6cb61b0d76b355aad469b49a4d16833d9ece66b3198cb6532592c863b1d8cc56231186c260b0580bf5faf97abc5e2ed74b95cae16eb75b2d56ab459ac964b1582c15eae572b558ac55aa954a95429d4ea652a9548a351a8944a1502813e9e4f275389c4da6934994ca612e974b2592a944a24d269248a45209047a391c8d46a31188b452291289442210e87432190a8542211068341209028140200fe7f3f1f8fa7d3e1f0f67b3d9e8f4793c9e0f0783b9dcec763b1d4ea753a1d0e873399cce472391c4e271381c0e06f379bcde6e371b8dc6d369b4da6c361b0d86c359acd66b359acd46a351a8d46a351a4d269349a4d269349a4d068341a0d068341a0d068,
    0x77bb9daed763add4ea74ba1cee773395c8e371b89c2e07037dbcdd6eb71b6da6cb65b0d76b359aad469b4da4d1683419ece66b3598cb6532992c86431d8cc562b1186c26130580bf5faf97abd5e2ed74ba5cae170b75b2d96ab459acd64b158ac15eaf572b55aac55aa954a9542a14ea65329548a451a8d44a150a813e9f4f2753a9c4da6d349a4ca6130974ba592a954a24d269249245229047a3d1c8e46a35188b45a29148944a21108743a190c8542a11068341209048140a01007f3f9f8fc7d3e9f0f87b3d9ecf47a3c9e4f2783c1dcee773b1d8ea753a9d0e874399cce672391c8e271389c4e070381bcde6f379b8dc6e371b4da6d369b4d86c361b0d86b359acd66b359a8d46a351a8d46a351a8d269349a4d269349a4d269349a0d068,
    0x77bb9dced763add6ea74ba1cee773395c8e471b89c2e17037dbcde6eb71b6da6d365b0d76bb59aad46a34da4d168b419ece6733598cb65b2992c96431d8cc662b1186c36130580c05faf97cbd5e2ed76ba5cae570b75bad96ab45a2cd64b258ac160af572b95aac55aad54a954aa14ea7532954aa451a8d44a250a81409f4f2793a9c4e26d369a4ca6530974ba592c954a25126934924922904823d1e8e47235188c45a2d148a44a25108843a190c8542a11088341a09048140a0100803f9fcfc7e3e9f4f87c3e1ecf67a3d1e4f2793c1e0ee773b9d8ec763a9d4ea743a1d0e673399c8e472389c4e270381c0e06f379bcde6e371b8dc6e369b4da6d369b0d86c361b0d66b359acd66b359acd46a351a8d46a351a8d46a349a4d269349a4d269,
    0x77bbddced763b1d6ea74ba1d0e773395cae471b89c4e17037dbcde6eb71b6db6d365b0d86bb59aad56a34da4d268b419ecf6733598cc65b2994c96431d8ec662b1188c36130582c05fafd7cbd5e2f176ba5d2e570b85bad96ab55a2cd66b258ac560af57ab95aac562ad54aa54aa150a7532994aa45228d46a250a85409f4fa793a9d4e271369a4d26530984ba5d2c954aa512893492492291482411e8e472351a8c4622d168a45225108843a1d0c8642a15088441a0d048240a050080401fcfe7e3f1f4fa7c3e1f0f67b3d1e8f4793c9e0f0783b9dcec763b1d4ea753a1d0e873399cce472391c8e271389c0e070381bcde6f379b8dc6e371b8da6d369b4da6d361b0d86c361b0d66b359acd66b359acd66a351a8d46a351a8d46a351a8d469,
    0x783bddced76bb1d6ea74ba5d0e773399cae471b8dc4e17037dbede6eb71b8db6d365b2d86bb59acd56a34da6d268b41a0cf673359acc65b2994c9643218ec662b1588c36130982c0602fd7cbd5eaf176bb5d2e570b85bad96cb55a2d166b2592c560af57ab95aad562ad56aa54aa550a753a994aa55229146a25128540a04fa793c9d4ea71369b4d26532984c25d2c964aa55289349a49249148a411e8f472391a8d46231168a4522512884421d0e86432150a844220d068241205028040200fe7f3f1f8fa7d3e1f0f87b3d9e8f47a3c9e4f0783c1dcee773b1d8ec753a9d4e8743a1cce673391c8e472389c4e270381c0e06f379bcde6f371b8dc6e371b4da6d369b4da6c361b0d86c361b0d86b359acd66b359acd66b359acd46a351a8d46a,
    0x783bddcee76bb1d6ea753a5d0e773b99cae47238dc4e170381bede6eb75b8db6d369b2d86bb5dacd56a351a6d268b45a0cf673399acc65b2d94c964b218ec66331588c361b0982c1602fd7cbe5eaf178bb5d2e572b85badd6cb55aad166b3592c560b057ab95cad562b156aa552a550a853a994ca55229146a35128542a04fa7d3c9d4ea71389b4d26932994c25d2e964b255289449a4d249248a41208f47a391c8d46231168b452291289442210e87432190a8542211068341209028140201007f3f9f8fc7d3e9f0f87c3d9ecf47a3d1e4f2793c1e0ee773b9d8ec763a9d4ea743a1d0e673399cce472391c4e271389c0e070381c0de6f379bcde6e371b8dc6e369b4da6d369b4da6c361b0d86c361b0d86c359acd66b359acd66b359acd66b,
    0x783bddeee76bb1d6eb753a5d0e873b99cae57238dc4e170b81bede6f375b8db6db69b2d86c35dacd56ab51a6d269345a0cf67b399acc6632d94ca64b218ec76331588c461b0984c1602fd7ebe5eaf578bb5d2e972b85c2dd6cb65aad168b3592c562b057abd5cad56ab156ab552a552a853a9d4ca552a9148a35128942a05027d3c9e4ea75389b4da6934994c2612e974b2552a944a24d249248a45209047a3d1c8d46a31188b45a29148944a21108743a190c8542a11088341a09048140a0100803f9fcfc7e3e9f4fa7c3e1ecf67b3d1e8f2793c9e0f0783b9dcee763b1d8ea753a9d0e874399cce673391c8e472389c4e271381c0e070379bcde6f379b8dc6e371b8dc6e369b4da6d369b4da6d361b0d86c361b0d86c361b0d86b359acd66b] = true := by decide +kernel

theorem rows200 : rows 200 [0x783c1deee76bb1d8eb753a5d2e873b99cce57238dc4e270b81bedf6f375b8dc6db69b2d96c35dacd66ab51a6d369345a0d067b399acd6632d96ca64b2190c7633158ac461b0d84c1603017ebe5f2f578bb5dae972b95c2dd6eb65aad568b3592c962b0582bd5cae56ab158ab552a952a85429d4ca652a9548a351a8942a15027d3e9e4f275389c4da6d34994ca6130974b2592a954a24d269249245229047a3d1c8e46a35188c45a2d148a44a25108843a1d0c8642a15088441a0d048240a050080401fcfe7e3f1f4fa7d3e1f0f67b3d9e8f47a3c9e4f0783c1dcee773b1d8ec753a9d4e8743a1d0e673399cce472391c8e271389c4e070381c0e06f379bcde6f379b8dc6e371b8dc6e369b4da6d369b4da6d369b4d86c361b0d86c361b0d86c,
    0x78bc1deee76bb5d8eb753a9d2e873b99cce57238dc6e270b81c0df6f375badc6db69b4d96c35daed66ab51a8d369345a2d067b399ccd6633196ca64b2590c7633198ac46230d84c160b017ebf5f2f578bc5dae974b95c2e16eb65b2d568b359ac962b1582bd5eae56ab558ab55aa952a95429d4ea65329548a451a8944a1502813e9f4f2753a9c4da6d349a4ca6130974ba592c954a25126934924922904823d1e8e472351a8c4622d168a45225128843a1d0e86432150a844220d068241205028040200fe7f3f1f8fa7d3e9f0f87c3d9ecf47a3d1e4f2793c1e0f0773b9dcec763b1d4ea753a1d0e874399cce673391c8e472389c4e271389c0e070381c0de6f379bcde6f371b8dc6e371b8dc6e371b4da6d369b4da6d369b4da6d369b0d86c,
    0x78bc1deee773b5d8eb75ba9d2e873b9dcce572391c6e270b85c0df6f379badc6db6db4d96c361aed66ab55a8d369349a2d067b3d9ccd66b3196ca6532590c763b198ac56230d84c260b0180bf5f2f57abc5daed74b95cae16eb65b2d568b459ac964b1582c15eae572b558ac55aa954a9542a14ea6532954aa451a8d44a150a81409f4f2793a9c4e26d369a4ca6530984ba5d2c954aa51289349a492291482411e8f472391a8d4622d168a4522512884421d0e86432150a8542211068341209028140201007f3f9f8fc7e3e9f4f87c3e1ecf67a3d1e8f2793c9e0f0783b9dcee763b1d8ec753a9d4e8743a1d0e673399cce472391c8e271389c4e270381c0e070381bcde6f379bcde6f379b8dc6e371b8dc6e371b8dc6d369b4da6d369b4da6d,
    0x78bc1deef773b5d8ec75ba9d2e87439dcce572b91c6e271385c0df6fb79badc6e36db4d96cb61aed66b355a8d369b49a2d06833d9cce66b3196cb6532590c863b198cc56230d86c260b0580bf5f2f97abc5e2ed74ba5cae16eb75b2d56ab459acd64b158ac15eaf572b55aac55aad54a954aa14ea7532994aa45228d44a250a85409f4fa793a9d4e271369a4d26532984ba5d2c964aa55289349a49249148a41208f47a391a8d46231168b452291289442210e87432190a8542a11088341a09048140a0500803f9fcfc7e3f1f4fa7c3e1f0f67b3d9e8f47a3c9e4f2783c1e0ee773b9d8ec763a9d4ea753a1d0e874399cce673391c8e472391c4e271389c4e270381c0e070381bcde6f379bcde6f379bcdc6e371b8dc6e371b8dc6e371b8da6d,
    0x78bc1e0ef773b5daec75ba9d2e97439dcce672b91c6e371385c0e06fb79badd6e36db4da6cb61aed76b355a8d469b49a2d16833d9ece66b3198cb6532592c863b1d8cc56231186c26130580bf5faf97abd5e2ed76ba5cae170b75b2d96ab45a2cd64b258ac160af572b95aac562ad54aa54aa150a753a994aa55228d46a250a8540a04fa793c9d4ea71369b4d26932984c25d2e964b255289449a4d249248a45208f47a391c8d46a31188b45a29148944a21108743a190c8542a15088441a0d048240a050280401fcfe7f3f1f8fa7d3e9f0f87b3d9ecf47a3d1e4f2793c1e0f0773b9dcee763b1d8ea753a9d4e8743a1d0e673399cce672391c8e472389c4e271389c4e070381c0e070381c0de6f379bcde6f379bcde6f379b8dc6e371b8dc6e,
    0x78bc5e0ef773b9daec75ba9d4e97439dcee672b91c8e371385c2e06fb79bcdd6e36db6da6cb61b0d76b355aad469b49a4d1683419ece66b3598cb6532992c86431d8cc562b1186c36130580c05faf97cbd5e2f176ba5cae570b75bad96ab55a2cd66b258ac560af57ab95aad562ad56aa54aa550a853a994ca55229146a25128542a04fa7d3c9e4ea71389b4da6932994c2612e974b2552a944a24d269249245209047a3d1c8e46a35188c45a2d148a44a25108843a1d0c8642a150a844220d068241205028140200fe7f3f9f8fc7d3e9f4f87c3e1ecf67b3d1e8f4793c9e4f0783c1dcee773b9d8ec763a9d4ea753a1d0e8743a1cce673399c8e472391c8e471389c4e271389c4e070381c0e070381c0e06f379bcde6f379bcde6f379bcde6f,
    0x793c5e0ef77bb9daec75badd4e9743a1cee672b95c8e371389c2e06fb7dbcdd6e371b6da6cb65b0d76b359aad469b4da4d1683419ece6733598cb65b2992c96431d8cc662b1188c36130582c05fafd7cbd5eaf176ba5d2e570b85bad96cb55a2d166b2592c560b057ab95cad562b156aa552a550a853a9d4ca552a9146a35128942a05027d3e9e4ea75389c4da6934994ca612e974b2592a954a25126924924522904823d1e8e472351a8c4622d168a4522512884421d0e86432150a8542211068341209048140a01007f3f9fcfc7e3f1f4fa7c3e1f0f67b3d9e8f47a3c9e4f2783c1e0f0773b9dcec763b1d8ea753a9d4ea743a1d0e873399cce673391c8e472391c8e471389c4e271389c4e270381c0e070381c0e070381c0de6f379bcde6f,
    0x793c5e0ef77bb9daec763add4e974ba1cee673395c8e371b89c2e07037dbcdd6eb71b6da6d365b0d76bb59aad46a34da4d168b419ecf6733598cc65b2994c96431d8ec662b1588c36130982c0602fd7cbe5eaf176bb5d2e572b85badd6cb55aad166b3592c562b057abd5cad56ab156ab552a552a85429d4ca652a9148a351a8942a1502813e9e4f2753a9c4da6d349a4ca6130974ba592c954aa512693492492291482411e8f472391a8d46231168b452291289442210e87432190a8542a11088341a09048240a050080401fcfe7e3f1f8fa7d3e9f0f87c3d9ecf67a3d1e8f2793c9e0f0783c1dcee773b1d8ec763a9d4ea753a9d0e8743a1d0e673399cce673391c8e472391c8e471389c4e271389c4e271389c0e070381c0e070381c0e070] = true := by decide +kernel

theorem rows208 : rows 208 [0x793c5e0f077bb9daed763add4ea74ba1cee773395c8e471b89c2e17037dbcde6eb71b6db6d365b0d86bb59aad56a34da4d268b41a0cf673359acc65b2d94c9643218ec66331588c361b0982c1602fd7ebe5eaf178bb5d2e972b85c2dd6cb65aad168b3592c962b0582bd5cae56ab158ab552a952a95429d4ea652a9548a451a8944a1502813e9f4f2753a9c4e26d369a4ca6530984ba5d2c954aa51289349a49249148a41208f47a391c8d46a31188b45a29148944a21108743a190c8542a15088441a0d048241205028040200fe7f3f9f8fc7d3e9f4f87c3e1ecf67b3d1e8f47a3c9e4f2783c1e0f0773b9dcee763b1d8ec753a9d4ea753a1d0e8743a1cce673399cce672391c8e472391c8e472389c4e271389c4e271389c4e271381c0e070,
    0x793c5e2f077bb9dced763add6ea74ba1d0e773395cae471b89c4e17037dbede6eb71b8db6d365b2d86bb59acd56a34da6d268b45a0cf673399acc6632d94c964b218ec76331588c461b0984c1603017ebe5eaf578bb5dae972b95c2dd6eb65aad568b359ac962b1582bd5eae56ab558ab55aa954a9542a14ea6532954aa451a8d44a150a81409f4f2793a9d4e271369a4d26532984c25d2c964aa55289449a4d249248a45208f47a391c8d46a31188b45a2d148a44a25108843a1d0c8642a150a844220d068341209028140a01007f3f9fcfc7e3f1f4fa7d3e1f0f87b3d9ecf47a3d1e4f2793c9e0f0783c1dcee773b9d8ec763b1d4ea753a9d4e8743a1d0e874399cce673399cce673391c8e472391c8e472391c8e271389c4e271389c4e271,
    0x793c9e2f077bbddced763b1d6ea74ba5d0e773399cae471b8dc4e170381bede6eb75b8db6d369b2d86bb5dacd56a351a6d269345a0cf67b399acd6632d94ca64b2190c7633158ac461b0d84c1603017ebe5f2f578bc5dae974b95c2e16eb65b2d568b459ac964b1582c15eae572b558ac55aad54a954aa14ea7532954aa45228d44a250a85409f4fa793c9d4e271369b4d26932984c25d2e964b2552a944a24d249248a45209047a3d1c8e46a35188c45a2d148a4522512884421d0e86432150a8542211068341a09048140a050080401fcfe7e3f1f8fa7d3e9f0f87c3d9ecf67b3d1e8f4793c9e4f2783c1e0f0773b9dcee763b1d8ec763a9d4ea753a9d4e8743a1d0e874399cce673399cce673399c8e472391c8e472391c8e472391c8e271,
    0x79bc9e2f0783bddced76bb1d6ea753a5d0e773b99cae47238dc4e170b81bede6f375b8db6db69b2d86c35dacd56ab51a6d369345a0d067b399acd6632d96ca64b2590c7633198ac46230d84c160b017ebf5f2f57abc5daed74b95cae16eb75b2d56ab459acd64b158ac15eaf572b55aac55aad54aa54aa150a7532994aa55228d46a25128540a04fa7d3c9d4ea71389b4da6932994c2612e974b2592a954a24d26924924522904823d1e8e472351a8c4622d168a452291289442210e87432190c8542a11088341a0d048240a05028040200fe7f3f9f8fc7e3e9f4fa7c3e1f0f67b3d9e8f47a3d1e4f2793c9e0f0783c1dcee773b9dcec763b1d8ec753a9d4ea753a9d0e8743a1d0e8743a1cce673399cce673399cce673391c8e472391c8e472,
    0x79bc9e2f1783bddcee76bb1d6eb753a5d0e873b99cae57238dc4e270b81bedf6f375b8dc6db69b2d96c35dacd66ab51a8d369345a2d067b399ccd6633196ca64b2590c763b198ac56230d84c260b0180bf5f2f97abc5e2ed74ba5cae170b75b2d96ab45a2cd64b258ac160af572b95aac562ad56aa54aa550a753a994ca55229146a35128542a05027d3c9e4ea75389c4da6934994ca6130974ba592a954a2512693492492291482411e8f472391a8d46231168b45229148944a21108743a190c8642a1508844220d068241209028140201007f3f9fcfc7e3f1f4fa7d3e1f0f87c3d9ecf67a3d1e8f4793c9e4f2783c1e0f0773b9dcee773b1d8ec763b1d8ea753a9d4ea753a9d0e8743a1d0e8743a1d0e673399cce673399cce673399cce673,
    0x79bc9e4f1783bddeee76bb1d8eb753a5d2e873b99cce57238dc6e270b81c0df6f375badc6db69b4d96c35daed66ab55a8d369349a2d067b3d9ccd66b3196ca6532590c863b198cc56230d86c260b0580bf5faf97abd5e2ed76ba5cae570b75bad96ab55a2cd66b258ac560af57ab95aad562b156aa552a550a853a9d4ca552a9148a35128942a15027d3e9e4f275389c4da6d349a4ca6530974ba592c954aa51289349a49249148a41208f47a391c8d46a31188b45a29148a44a25108843a1d0c86432150a8442211068341209048140a050080401fcfe7f3f1f8fc7d3e9f4f87c3e1f0f67b3d9e8f47a3d1e4f2793c9e0f0783c1e0ee773b9dcee763b1d8ec763b1d8ea753a9d4ea753a9d4e8743a1d0e8743a1d0e8743a1d0e673399cce673,
    0x79bcde4f1783c1deee76bb5d8eb753a5d2e873b99cce572391c6e270b85c0df6f379badc6db6db4d96c361aed66b355a8d369b49a2d06833d9cce66b3196cb6532592c863b1d8cc56231186c26130580c05faf97cbd5e2f176ba5d2e570b85bad96cb55a2d166b2592c560b057ab95cad56ab156ab552a552a85429d4ca652a9148a351a8944a1502813e9f4f2753a9c4e26d369a4d26530984ba5d2c964aa55289449a4d249248a45209047a3d1c8e46a35188c45a2d148a4522512884421d0e87432190a8542211088341a0d048240a05028040200fe7f3f9f8fc7e3e9f4fa7d3e1f0f87b3d9ecf67a3d1e8f4793c9e4f2793c1e0f0783c1dcee773b9dcee763b1d8ec763b1d8ea753a9d4ea753a9d4ea753a1d0e8743a1d0e8743a1d0e874,
    0x7a3cde4f178bc1deee773b5d8eb753a9d2e873b9dcce572391c6e271385c0df6fb79badc6e36db4d96cb61aed76b355a8d469b49a2d16833d9ece66b3198cb6532992c86431d8cc562b1186c36130582c05fafd7cbd5eaf176bb5d2e572b85badd6cb55aad166b3592c562b057abd5cad56ab158ab552a952a95429d4ea652a9548a451a8944a150a81409f4f2793a9d4e271369a4d26532984c25d2e964b2552a944a24d26924924522904823d1e8e472351a8c4622d168a452291289442210e8743a190c8542a15088441a0d068241209028140a0100803f9fcfe7e3f1f8fa7d3e9f4f87c3e1ecf67b3d9e8f47a3d1e8f2793c9e4f2783c1e0f0783b9dcee773b9dcec763b1d8ec763b1d8ec753a9d4ea753a9d4ea753a9d4ea753a1d0e874] = true := by decide +kernel

theorem rows216 : rows 216 [0x7a3cde4f278bc1deee773b5d8eb75ba9d2e87439dcce572b91c6e371385c0e06fb79badd6e36db4da6cb61b0d76b355aad469b49a4d1683419ece66b3598cb65b2992c96431d8cc662b1188c36130982c0602fd7cbe5eaf178bb5d2e972b85c2dd6cb65aad168b3592c962b0582bd5cae56ab558ab55aa952a9542a14ea6532954aa451a8d44a250a85409f4fa793c9d4ea71369b4d26932994c2612e974b2592a944a24d2692492452290482411e8f472391a8d46231168b45229148944a21108743a1d0c8642a150a8442211068341209048140a050080401fcfe7f3f9f8fc7e3e9f4fa7d3e1f0f87b3d9ecf67b3d1e8f47a3c9e4f2793c9e0f0783c1e0f0773b9dcee773b9dcee763b1d8ec763b1d8ec763b1d4ea753a9d4ea753a9d4ea75,
    0x7a3cde6f278bc1deef773b5d8ec75ba9d2e97439dcce672b91c8e371385c2e06fb79bcdd6e36db6da6cb61b0d76b359aad469b4da4d168b419ece6733598cc65b2994c96431d8ec662b1588c361b0982c1602fd7ebe5eaf578bb5dae972b95c2dd6eb65aad568b359ac962b1582bd5eae572b558ac55aa954a954aa14ea7532994aa45228d46a250a8540a04fa7d3c9e4ea71389b4da6934994ca6130974b2592a954a2512693492492291482411e8f47a391c8d46a31188b45a29148a44a2510884421d0e86432190a8542211088341a0d048241205028140201007f3f9fcfc7e3f1f8fa7d3e9f4f87c3e1f0f67b3d9ecf47a3d1e8f4793c9e4f2793c9e0f0783c1e0f0773b9dcee773b9dcee773b1d8ec763b1d8ec763b1d8ec763b1d4ea75,
    0x7a3d1e6f278bc1e0ef773b5daec75ba9d4e97439dcee672b91c8e371389c2e06fb7dbcdd6e371b6da6cb65b0d76bb59aad46a34da4d268b419ecf673359acc65b2d94c9643218ec66331588c461b0984c1603017ebe5eaf578bb5dae972b95c2e16eb65b2d568b459ac964b1582c15eaf572b55aac55aad54aa54aa150a753a994aa55229146a25128542a05027d3c9e4ea75389c4da6d349a4ca6130974ba592c954aa51289349a49249148a41208f47a3d1c8e46a35188c45a2d148a452251288442210e87432190c8542a15088441a0d068241209028140a010080401fcfe7f3f1f8fc7e3e9f4fa7d3e1f0f87c3d9ecf67b3d9e8f47a3d1e8f2793c9e4f2793c1e0f0783c1e0f0783b9dcee773b9dcee773b9dcee763b1d8ec763b1d8ec76,
    0x7a3d1e6f278bc5e0ef773b9daec75badd4e9743a1cee672b95c8e371b89c2e07037dbcdd6eb71b6da6d365b0d86bb59aad56a34da6d268b41a0cf673399acc6632d94c964b218ec7633158ac461b0d84c1603017ebe5f2f578bc5dae974b95cae16eb75b2d56ab459acd64b158ac160af572b95aac562ad56aa54aa550a853a994ca552a9146a35128942a15027d3e9e4f2753a9c4e26d349a4ca6530984ba5d2c964aa55289449a4d249248a45209047a3d1c8e472351a8c4622d168b45229128944221108743a1d0c8642a150a8442211068341a09048240a05028040200fe7f3f9fcfc7e3f1f8fa7d3e9f4f87c3e1f0f67b3d9ecf67a3d1e8f47a3d1e4f2793c9e4f2793c1e0f0783c1e0f0783c1dcee773b9dcee773b9dcee773b9dcee76,
    0x7abd1e6f2793c5e0ef77bb9daec763add4e974ba1cee673395c8e471b89c2e17037dbcde6eb71b6db6d365b2d86bb59acd56a351a6d268b45a0cf67b399acc6632d94ca64b2190c7633198ac46230d84c160b017ebf5f2f57abc5daed74b95cae170b75b2d96ab45a2cd64b258ac560af57ab95aad562b156aa552a552a853a9d4ca652a9148a351a8944a1502813e9f4f2793a9c4e26d369a4d26532984c25d2e964b2552a944a24d26924924522904823d1e8e472391a8d46231168b45a29148944a25108843a1d0e86432190a8542211088341a0d048241205028140a0100803f9fcfe7f3f1f8fc7e3e9f4fa7d3e1f0f87c3e1ecf67b3d9ecf47a3d1e8f47a3d1e4f2793c9e4f2793c9e0f0783c1e0f0783c1e0f0783c1dcee773b9dcee77,
    0x7abd1e6f3793c5e0f077bb9daed763add4ea74ba1cee773395cae471b89c4e17037dbede6eb71b8db6d369b2d86bb5dacd56ab51a6d269345a0d067b399acd6632d96ca64b2590c763b198ac56230d84c260b0180bf5f2f97abc5e2ed74ba5cae570b75bad96ab55a2cd66b258ac560b057ab95cad56ab156ab552a552a85429d4ea652a9548a451a8944a150a81409f4fa793a9d4e271369b4d26932994c2612e974b2592a954a2512693492492291482411e8f47a391c8d46a31188b45a2d148a44a2512884421d0e87432190c8542a1508844220d068341209048140a05028040200fe7f3f9fcfc7e3f1f8fa7d3e9f4fa7c3e1f0f87c3d9ecf67b3d9ecf47a3d1e8f47a3d1e4f2793c9e4f2793c9e4f2783c1e0f0783c1e0f0783c1e0f078,
    0x7abd1e8f3793c5e2f077bb9dced763add6ea74ba1d0e773399cae471b8dc4e170381bede6eb75b8db6db69b2d86c35dacd66ab51a6d369345a2d067b399ccd6633196ca6532590c863b198cc56230d86c260b0580bf5faf97abd5e2ed76ba5d2e570b85bad96cb55a2d166b2592c562b057abd5cad56ab158ab552a952a95429d4ea6532954aa451a8d44a250a85409f4fa793c9d4ea71389b4da6934994ca6130974ba592c954aa51289349a49249148a41208f47a3d1c8e46a35188c4622d168a45229128944221108743a190c8642a150a8442211068341a0904824120502814020100803f9fcfe7f3f1f8fc7e3f1f4fa7d3e9f0f87c3e1f0f87b3d9ecf67b3d9ecf47a3d1e8f47a3d1e8f2793c9e4f2793c9e4f2793c9e4f2783c1e0f078,
    0x7abd5e8f3793c9e2f077bbddced763b1d6ea74ba5d0e773b99cae47238dc4e170b81bede6f375b8dc6db69b2d96c35daed66ab51a8d369349a2d067b3d9ccd66b3196cb6532592c863b198cc56231186c26130580c05faf97cbd5e2f176ba5d2e572b85badd6cb55aad166b3592c962b0582bd5cae56ab558ab55aa954a9542a14ea7532994aa45228d46a25128540a04fa7d3c9e4ea75389c4da6d34994ca6130974ba592c954aa55289449a4d249248a45209047a3d1e8e472351a8c46231168b45229148944a21108843a1d0e86432190a8542a11088441a0d068241209048140a05008040200fe7f3f9fcfc7e3f1f8fc7d3e9f4fa7d3e1f0f87c3e1f0f67b3d9ecf67b3d9ecf47a3d1e8f47a3d1e8f47a3d1e4f2793c9e4f2793c9e4f279] = true := by decide +kernel

theorem rows224 : rows 224 [0x7b3d5e8f379bc9e2f0783bddced76bb1d6ea753a5d0e773b99cae57238dc4e270b81bedf6f375badc6db69b4d96c361aed66ab55a8d369b49a2d06833d9cce66b3198cb6532992c863b1d8cc562b1186c36130582c05fafd7cbd5eaf176bb5d2e972b85c2dd6cb65aad168b359ac962b1582bd5eae572b558ac55aad54a954aa150a7532994aa55229146a35128542a05027d3e9e4f2753a9c4da6d349a4ca6530984ba5d2c964aa5528944a24d26924924522904823d1e8f472391a8d46231188b45a29148a44a2512884421d0e87432190c8542a15088442211068341a0904824120502814020100803f9fcfe7f3f9f8fc7e3f1f8fa7d3e9f4fa7d3e1f0f87c3e1f0f67b3d9ecf67b3d9ecf67a3d1e8f47a3d1e8f47a3d1e8f47a3d1e4f279,
    0x7b3d5e8f479bc9e2f1783bddcee76bb1d6eb753a5d0e873b99cce57238dc6e270b81c0df6f379badc6db6db4d96cb61aed66b355a8d469b49a2d16833d9ece66b3598cb65b2992c86431d8cc662b1188c36130982c0602fd7cbe5eaf178bb5dae972b95c2dd6eb65aad568b459ac964b1582c15eaf572b55aac562ad54aa54aa550a753a994ca552a9146a35128942a1502813e9f4f2753a9c4e26d369a4d26532984c25d2e964b2552a944a2512693492492291482411e8f47a391c8d46a35188c45a2d168a45225128944221108743a1d0c86432150a8542211088341a0d068241209028140a05008040201007f3f9fcfe7f3f1f8fc7e3f1f4fa7d3e9f4fa7c3e1f0f87c3e1f0f87b3d9ecf67b3d9ecf67b3d9ecf47a3d1e8f47a3d1e8f47a,
    0x7b3d5eaf479bc9e4f1783bddeee76bb1d8eb753a5d2e873b9dcce572391c6e270b85c0df6fb79badc6e36db4da6cb61aed76b355aad469b49a4d1683419ece6733598cc65b2992c96431d8ec662b1588c361b0982c1602fd7ebe5eaf578bb5dae974b95c2e16eb65b2d568b459acd64b158ac160af572b95aad562ad56aa552a550a853a9d4ca652a9148a351a8944a150a813e9f4f2793a9d4e271369b4d26932994c2612e974b2592a954a251269349a49249148a41209047a3d1c8e46a351a8c4622d168b45229148944a21108843a1d0e86432190a8542a1508844220d068341a09048241205028140a010080401fcfe7f3f9fcfc7e3f1f8fc7e3e9f4fa7d3e9f4fa7c3e1f0f87c3e1f0f87c3e1ecf67b3d9ecf67b3d9ecf67b3d9ecf67a,
    0x7b3d9eaf479bcde4f1783c1deee76bb5d8eb753a9d2e87439dcce572b91c6e271385c0e06fb79badd6e36db6da6cb61b0d76b359aad469b4da4d168b419ecf673359acc65b2994c9643218ec66331588c461b0984c1603017ebe5f2f578bc5daed74b95cae16eb75b2d56ab45a2cd64b258ac560af57ab95cad562b156ab552a552a85429d4ea652a9548a451a8d44a250a81409f4fa793c9d4ea71389b4da6934994ca6130974ba592c954aa51289349a4d249248a4520904823d1e8e472351a8d46231188b45a29148a44a251288442210e8743a190c8642a150a8442211088341a0d068241209048140a0502804020100803f9fcfe7f3f9f8fc7e3f1f8fc7e3e9f4fa7d3e9f4fa7d3e1f0f87c3e1f0f87c3e1f0f87c3d9ecf67b3d9ecf67b,
    0x7bbd9eaf47a3cde4f178bc1deee773b5d8eb75ba9d2e97439dcce672b91c6e371385c2e06fb79bcdd6e371b6da6cb65b0d76bb59aad46a34da4d268b41a0cf673359acc65b2d94c964b218ec7633158ac461b0d84c160b017ebf5f2f57abc5e2ed74ba5cae170b75b2d96ab55a2cd66b2592c560b057ab95cad56ab158ab552a952a95429d4ea6532954aa45228d44a250a8540a04fa7d3c9e4ea75389c4da6d349a4ca6530984ba5d2c964aa55289449a4d2692492452290482411e8f472391c8d46a31188c45a2d168a45225128944221108743a1d0c86432190a8542a1108844220d068341a09048241205028140a05008040201007f3f9fcfe7f3f9f8fc7e3f1f8fc7e3e9f4fa7d3e9f4fa7d3e9f4f87c3e1f0f87c3e1f0f87c3e1f0f87c,
    0x7bbd9eaf57a3cde4f278bc1deef773b5d8ec75ba9d4e97439dcee672b91c8e371389c2e06fb7dbcdd6e371b6da6d365b0d86bb59aad56a34da6d268b45a0cf673399acc6632d94ca64b2190c7633198ac46230d84c260b0180bf5f2f97abd5e2ed76ba5cae570b75bad96cb55a2d166b2592c562b057abd5cae56ab158ab55aa954a9542a14ea7532994aa55228d46a25128542a05027d3e9e4f2753a9c4e26d369a4d26532984c25d2e964b2552a944a24d269349249229148241208f47a391c8e46a351a8c4622d168b45229148944a2510884421d0e87432190c8642a150a8442211088341a0d068241209048140a05028140201008040200fe7f3f9fcfe7f3f9f8fc7e3f1f8fc7e3f1f4fa7d3e9f4fa7d3e9f4fa7d3e9f4f87c3e1f0f87c,
    0x7bbd9ecf57a3cde6f278bc1e0ef773b5daec75badd4e9743a1cee672b95c8e371b89c2e07037dbcdd6eb71b6db6d365b2d86bb59acd56a351a6d269345a0cf67b399acd6632d96ca64b2590c763b198ac56230d86c260b0580bf5faf97abd5e2f176ba5d2e570b85badd6cb55aad166b3592c962b0582bd5eae56ab558ac55aad54a954aa150a753a994aa55229146a35128942a1502813e9f4f2753a9c4e26d369a4d26932994c2612e974b2592a954a251289349a49249148a45209047a3d1e8e472351a8d46231188b45a29148a44a25128844221108743a1d0c86432150a8542a1108844220d068341a09048241209028140a050280402010080401fcfe7f3f9fcfe7f3f9f8fc7e3f1f8fc7e3f1f8fc7e3e9f4fa7d3e9f4fa7d3e9f4fa7d,
    0x7bbddecf57a3d1e6f278bc5e0ef773b9daec75badd4e974ba1cee673395c8e471b89c2e17037dbcde6eb71b8db6d369b2d86bb5dacd56ab51a6d369345a0d067b399ccd6633196ca6532590c863b198cc56231186c26130580c05faf97cbd5eaf176bb5d2e572b85c2dd6cb65aad168b359ac962b1582c15eae572b55aac562ad54aa54aa550a853a994ca552a9148a351a8944a1502813e9f4f2793a9d4e271369b4d26932994ca6130974ba592c954aa51289449a4d249248a4522904823d1e8f472391a8d46a31188c45a2d168a45229128944a21108843a1d0e87432190c8542a150a8442211088341a0d068341209048241205028140a050280402010080401fcfe7f3f9fcfe7f3f9fcfc7e3f1f8fc7e3f1f8fc7e3f1f8fc7e3e9f4fa7d] = true := by decide +kernel

theorem rows232 : rows 232 [0x7c3ddecf57abd1e6f2793c5e0ef77bb9daec763add4ea74ba1cee773395c8e471b89c4e17037dbede6eb75b8db6db69b2d86c35dacd66ab51a8d369345a2d067b3d9ccd66b3196cb6532592c863b1d8cc562b1186c36130582c05fafd7cbe5eaf178bb5d2e972b85c2dd6eb65aad568b459ac964b158ac15eaf572b95aac562ad56aa552a550a853a9d4ca652a9548a451a8944a150a81409f4fa793c9d4ea71389b4da6934994ca6130984ba5d2c964aa5528944a24d2692492452291482411e8f47a391c8e46a351a8c4622d168b45229148944a251288442210e8743a190c86432150a8542a11088442211068341a0d048241209048240a05028140a05008040201008040200fe7f3f9fcfe7f3f9fcfe7f3f9f8fc7e3f1f8fc7e3f1f8fc7e,
    0x7c3ddecf67abd1e6f3793c5e0f077bb9daed763add6ea74ba1d0e773395cae471b8dc4e170381bede6f375b8db6db69b2d96c35daed66ab55a8d369349a2d06833d9cce66b3198cb6532992c86431d8cc662b1188c36130982c0602fd7ebe5eaf578bb5dae972b95c2e16eb65b2d56ab459acd64b258ac160af57ab95aad562b156ab552a552a85429d4ea65329548a451a8d44a250a8540a04fa7d3c9e4ea75389c4da6d349a4ca6530984c25d2e964b2552a944a251269349249249148a41209047a3d1c8e472351a8d46231188b45a2d148a45225128944221108843a1d0e86432190c8542a150a8542211088441a0d068341a09048241209048140a05028140a0500804020100804020100803f9fcfe7f3f9fcfe7f3f9fcfe7f3f9fcfc7e,
    0x7c3ddeef67abd1e8f3793c5e2f077bb9dced763b1d6ea74ba5d0e773399cae47238dc4e170b81bedf6f375b8dc6db69b4d96c361aed66b355a8d369b49a2d16833d9ece66b3598cb65b2992c96431d8ec662b1588c361b0982c1602fd7ebe5f2f578bc5dae974b95cae16eb75b2d96ab45a2cd66b258ac560b057ab95cad56ab158ab552a952a9542a14ea7532954aa45228d46a25128542a05027d3e9e4f2753a9c4e26d369a4d26532984c2612e974b2592a954aa51289349a49249248a4520904823d1e8f472391a8d46a31188c45a2d168a45229148944a251088442210e8743a190c86432190a8542a15088442211088341a0d068341209048241209048140a05028140a05028040201008040201008040201007f3f9fcfe7f3f9fcfe7f,
    0x7c3e1eef67abd5e8f3793c9e2f077bbddced76bb1d6ea753a5d0e773b99cae57238dc4e270b81c0df6f375badc6db6db4d96cb61aed66b355a8d469b49a4d1683419ece6733598cc65b2994c9643218ec66331588c461b0984c1603017ebf5f2f57abc5daed74ba5cae170b75b2d96ab55a2cd66b2592c562b057abd5cae56ab158ab55aa954a954aa14ea7532994aa55229146a35128942a1502813e9f4f2793a9d4e271369b4d26932994c26130974ba592c954aa55289449a4d2692492452291482411e8f47a391c8e46a351a8c46231168b45a29148a44a25128944221108843a1d0e87432190c8642a150a8542a11088442211068341a0d068341209048241209048140a05028140a05028140a010080402010080402010080402010080,
    0x7cbe1eef67b3d5e8f379bc9e2f0783bddcee76bb1d6eb753a5d0e873b99cce57238dc6e270b85c0df6f379badc6e36db4da6cb61aed76b355aad469b4da4d168b419ecf673359acc65b2d94c964b218ec7633158ac461b0d84c160b0180bf5f2f97abc5e2ed76ba5cae570b75bad96cb55a2d166b3592c562b0582bd5eae56ab558ac55aad54aa54aa150a753a994ca552a9148a351a8944a150a81409f4fa793c9d4ea71389b4da6934994ca6130984ba5d2c964aa552a944a24d269349249229148a41209047a3d1c8e472351a8d46231188b45a2d168a45229128944a251088442210e8743a1d0c86432190a8542a150a844221108844220d068341a0d068341209048241209048240a05028140a05028140a05028140a010080402010080,
    0x7cbe1eef77b3d5e8f479bc9e2f1783bddeee76bb1d8eb753a5d2e873b9dcce572391c6e271385c0df6fb79badd6e36db6da6cb61b0d76b359aad46a34da4d268b41a0cf673399acc6632d94ca64b2190c7633198ac46230d84c260b0580bf5faf97abd5e2f176ba5d2e570b85badd6cb55aad168b3592c962b1582c15eae572b55aac562ad54aa54aa550a853a9d4ca652a9548a451a8d44a150a81409f4fa7d3c9e4ea75389c4da6d349a4ca6530984c25d2e964b2552a954a251269349a49249248a4520904823d1e8f472391c8d46a35188c4622d168b45a29148a44a25128944221108843a1d0e87432190c86432150a8542a15088442211088441a0d068341a0d068341209048241209048241209048140a05028140a05028140a050281,
    0x7cbe1f0f77b3d5eaf479bc9e4f1783c1deee76bb5d8eb753a9d2e87439dcce572b91c6e371385c0e06fb79bcdd6e371b6da6cb65b0d76bb59aad56a34da6d268b45a0cf67b399acd6632d96ca64b2590c763b198ac56230d86c26130580c05faf97cbd5e2f176bb5d2e572b85c2dd6cb65aad568b359ac964b158ac15eaf572b95aad562ad56aa552a552a85429d4ea65329548a451a8d44a250a8540a04fa7d3c9e4f2753a9c4e26d369a4d26532994c2612e974b2592c954aa51289449a4d2492492452291482411e8f47a391c8e46a351a8d46231188b45a2d148a45229128944a251088442210e8743a1d0e86432190c8642a150a8542a15088442211088441a0d068341a0d068341a09048241209048241209048241209048140a050281,
    0x7cbe5f0f77b3d9eaf479bcde4f178bc1deee773b5d8eb75ba9d2e97439dcce672b91c8e371385c2e06fb7dbcdd6eb71b6da6d365b0d86bb59acd56a351a6d269345a0d067b399ccd6633196ca6532590c863b198cc56231186c26130582c05fafd7cbd5eaf178bb5d2e972b95c2dd6eb65b2d568b459acd64b158ac160af57ab95aad562b156ab552a952a95429d4ea6532954aa45228d46a25128542a05027d3e9e4f2753a9d4e271369b4d26932994ca6130974ba592c964aa5528944a24d269249249229148a41209047a3d1e8e472391a8d46a31188c4622d168b45229148a44a2512894422110884421d0e8743a190c86432190c8542a150a8542a1108844221108844220d068341a0d068341a0d0683412090482412090482412090482] = true := by decide +kernel

theorem rows240 : rows 240 [0x7d3e5f0f77bbd9eaf47a3cde4f278bc1deef773b5d8ec75ba9d4e97439dcee672b95c8e371389c2e07037dbcde6eb71b6db6d365b2d86bb5dacd56ab51a6d369345a2d067b3d9ccd66b3196cb6532592c863b1d8cc562b1186c36130982c0602fd7cbe5eaf578bb5dae974b95c2e16eb75b2d56ab45a2cd64b258ac560b057ab95cad56ab158ab55aa954a9542a14ea7532994aa55229146a35128942a1502813e9f4f2793a9d4ea71389b4da6934994ca6530984ba5d2c964b2552a954a251269349a49249248a4520904823d1e8f472391c8e46a351a8c46231168b45a2d148a45229128944a25108844221108743a1d0e87432190c86432190a8542a150a8542a11088442211088442211088341a0d068341a0d068341a0d068341a090482,
    0x7d3e5f0f87bbd9eaf57a3cde6f278bc1e0ef773b5daec75badd4e9743a1cee673395c8e371b89c2e17037dbede6eb71b8db6d369b2d86c35dacd66ab51a8d369349a2d06833d9cce66b3198cb6532992c86431d8cc662b1188c361b0982c1602fd7ebe5f2f578bc5dae974b95cae16eb75b2d96ab55a2cd66b2592c562b057abd5cae56ab558ac55aa954a954aa150a753a994ca552a9148a351a8944a150a81409f4fa793c9d4ea75389c4da6d349a4ca6532984c25d2e974b2592a954aa51289349a4d249249245229148241208f47a3d1c8e472351a8d46a31188c45a2d168b45229148a44a25128944a211088442210e8743a1d0e86432190c86432190a8542a150a8542a15088442211088442211088442211068341a0d068341a0d0683,
    0x7d3e5f2f87bbd9ecf57a3cde6f278bc5e0ef773b9daec763add4e974ba1cee773395c8e471b89c4e170381bede6eb75b8db6db69b2d96c35daed66ab55a8d369b49a2d16833d9ece66b3598cb65b2992c96431d8ec662b1588c461b0984c1603017ebf5f2f57abc5daed74ba5cae170b75bad96cb55a2d166b3592c562b0582bd5eae572b558ac55aad54aa54aa550a853a9d4ca652a9548a451a8d44a250a8540a04fa7d3c9e4ea753a9c4e26d369a4d26932994c2612e974ba592c954aa5528944a24d269349249229148a41209047a3d1e8f472391c8d46a351a8c46231168b45a2d148a45229148944a2512884422110884421d0e8743a1d0e86432190c86432190a8542a150a8542a150a85422110884422110884422110884422110884,
    0x7d3e9f2f87bbddecf57a3d1e6f2793c5e0ef77bb9daed763add4ea74ba1d0e773395cae471b8dc4e170b81bede6f375b8dc6db69b4d96c361aed66b355a8d469b49a2d1683419ece6733598cc65b2994c9643218ec66331588c461b0d84c160b0180bf5f2f97abc5e2ed76ba5cae570b85bad96cb55aad168b3592c962b1582c15eaf572b55aac562ad56aa552a552a85429d4ea6532954aa45228d46a25128542a05027d3e9e4f2753a9d4e271369b4d26934994ca6130984ba5d2c964b2552a944a251269349a49249248a452290482411e8f47a391c8e472351a8d46a31188c45a2d168b45a29148a45225128944a25108844221108843a1d0e8743a1d0e86432190c86432190c8542a150a8542a150a8542a150a85422110884422110884,
    0x7dbe9f2f87c3ddecf57abd1e6f3793c5e0f077bb9dced763add6ea74ba5d0e773399cae47238dc4e170b81bedf6f375badc6db6db4d96cb61aed76b355a8d469b49a4d1683419ecf673359acc65b2d94c964b218ec7633158ac46230d84c260b0180bf5faf97abd5e2f176ba5d2e572b85badd6cb65aad568b359ac964b158ac15eaf572b95aad562b156ab552a952a9542a14ea6532954aa55229146a35128942a1502813e9f4f2793a9d4ea71389b4da69349a4ca6530984c25d2e964b2592a954aa51289449a4d249249245229148a41209047a3d1e8e472391c8d46a351a8c46231188b45a2d168a45229148a44a25128944a21108844221108843a1d0e8743a1d0e86432190c86432190c86432190a8542a150a8542a150a8542a150a85,
    0x7dbe9f2f97c3ddecf67abd1e8f3793c5e2f077bbddced763b1d6ea753a5d0e773b99cae57238dc4e270b81c0df6f379badc6e36db4da6cb61aed76b355aad469b4da4d168b419ecf673399acc6632d94ca64b2190c7633198ac56230d86c260b0580c05faf97cbd5eaf176bb5d2e972b85c2dd6eb65b2d568b459acd64b258ac160af57ab95cad56ab158ab55aa952a9542a14ea7532994aa55229146a351a8944a150a81409f4fa793c9d4ea75389c4da6d369a4d26532984c2612e974ba592c954aa5528944a24d269349249249148a452090482411e8f47a391c8e472351a8d46a31188c4622d168b45a2d148a45229148944a25128944a21108844221108843a1d0e8743a1d0e87432190c86432190c86432190c86432190c8542a150a85,
    0x7dbe9f4f97c3ddeef67abd5e8f3793c9e2f0783bddced76bb1d6eb753a5d0e873b99cce57238dc6e270b85c0df6fb79badd6e36db6da6cb61b0d76b359aad46a34da4d268b41a0cf67b399acd6632d96ca64b2590c763b198cc56231186c26130582c05fafd7cbe5eaf178bb5dae972b95c2e16eb65b2d56ab45a2cd66b258ac560b057abd5cae56ab558ab55aa954a954aa150a753a994ca552a9148a351a8944a250a8540a04fa7d3c9e4f2753a9c4e26d369b4d26932994ca6130974ba5d2c964b2552a944a251269349a49249249245229148241208f47a3d1e8e472391c8d46a351a8c46231188b45a2d168b45229148a45229128944a25128944221108844221108843a1d0e8743a1d0e8743a1d0e86432190c86432190c86432190c86,
    0x7dbedf4f97c3e1eef67b3d5e8f379bc9e2f1783bddcee76bb1d8eb753a5d2e873b9dcce572391c6e271385c0e06fb79bcdd6e371b6da6cb65b0d76bb59aad56a34da6d268b45a0d067b399ccd6633196ca6532590c863b1d8cc562b1186c36130982c0602fd7ebe5eaf578bc5dae974b95cae16eb75b2d96ab55a2cd66b2592c562b0582bd5eae56ab558ac55aad54aa54aa550a853a9d4ca652a9548a451a8d44a25128542a05027d3e9e4f2793a9d4e271369b4da6934994ca6530984c25d2e964b2592a954aa51289449a4d269249249229148a4520904823d1e8f47a391c8e472351a8d46a31188c46231168b45a2d168a45229148a45225128944a251289442211088442211088442210e8743a1d0e8743a1d0e8743a1d0e8743a190c86] = true := by decide +kernel

theorem rows248 : rows 248 [0x7e3edf4f97cbe1eef77b3d5e8f479bc9e2f1783bddeee76bb5d8eb753a9d2e87439dcce572b91c6e371385c2e06fb7dbcdd6e371b6da6d365b0d86bb59acd56a351a6d269345a0d067b3d9ccd66b3196cb6532592c86431d8cc662b1188c361b0982c1602fd7ebe5f2f578bc5daed74ba5cae170b75bad96cb55a2d166b3592c962b1582bd5eae572b55aac562ad56aa552a552a85429d4ea6532954aa45228d46a25128942a1502813e9f4f2793c9d4ea71389c4da6d349a4d26532984c2612e974ba592c954aa5528944a24d269349a49249248a45229048241208f47a3d1e8e472391c8d46a351a8d46231188c4622d168b45a2d148a45229148a45225128944a25128944a2110884422110884422110884421d0e8743a1d0e8743a1d0e87,
    0x7e3edf4fa7cbe1f0f77b3d5eaf479bc9e4f1783c1deee76bb5d8eb75ba9d2e97439dcce672b91c8e371389c2e07037dbcdd6eb71b6db6d365b2d86bb5dacd56ab51a6d369345a2d06833d9cce66b3198cb6532992c86431d8ec662b1588c461b0984c1603017ebf5f2f57abc5e2ed76ba5cae570b85bad96cb55aad168b359ac964b1582c15eaf572b95aad562b156ab552a952a9542a14ea7532994aa55229146a35128944a150a81409f4fa793c9e4ea75389c4e26d369a4d26932994c26130974ba5d2c964b2552a954a251289349a4d249249249229148a4120904823d1e8f47a391c8e472391a8d46a35188c46231188c45a2d168b45a2d148a45229148a45225128944a25128944a251288442211088442211088442211088442211087,
    0x7e3edf6fa7cbe5f0f77b3d9eaf479bcde4f178bc1deee773b5d8ec75ba9d4e97439dcee672b95c8e371b89c2e17037dbcde6eb71b8db6d369b2d86c35dacd66ab51a8d369349a2d06833d9ece66b3598cb65b2992c9643218ec66331588c461b0d84c160b0180bf5f2f97abd5e2ed76ba5d2e572b85badd6cb65aad568b459ac964b158ac160af57ab95cad56ab158ab55aa954a954aa150a753a994ca552a9148a351a8944a250a8540a04fa7d3e9e4f2753a9c4e271369b4d26934994ca6530984c25d2e964b2592a954aa5528944a24d269349249249248a45229048241208f47a3d1e8f472391c8e46a351a8d46a31188c46231188b45a2d168b45a2d148a45229148a45229128944a25128944a25128944a251289442211088442211088,
    0x7e3f1f6fa7d3e5f0f77bbd9eaf47a3cde4f278bc1deef773b5daec75badd4e9743a1cee673395c8e471b89c4e17037dbede6eb75b8db6db69b2d96c35daed66ab55a8d369b49a2d1683419ece6733598cc65b2994c964b218ec7633158ac46230d84c260b0580bf5faf97cbd5e2f176bb5d2e972b85c2dd6eb65b2d568b459acd64b258ac560b057abd5cae56ab558ac55aad54aa54aa550a853a9d4ca652a9548a451a8d44a25128542a05027d3e9f4f2793a9d4ea71389b4da6d349a4ca6532984c2612e974ba592c964aa552a944a251269349a4d249249249229148a4120904823d1e8f47a3d1c8e472391c8d46a351a8d46231188c46231188b45a2d168b45a2d148a45229148a45229148a45225128944a25128944a25128944a251289,
    0x7ebf1f6fb7d3e5f0f87bbd9eaf57a3cde6f278bc1e0ef773b9daec763add4e974ba1cee773395cae471b8dc4e170381bede6f375b8dc6db69b4d96c361aed66b355a8d469b49a4d168b419ecf673359acc65b2d94ca64b2190c7633198ac56230d86c26130580c05fafd7cbd5eaf178bb5dae972b95c2e16eb75b2d56ab45a2cd66b2592c562b0582bd5cae56ab558ac55aad54aa54aa550a85429d4ea6532954aa45228d46a25128942a1502813e9f4fa793c9d4ea75389c4da6d369a4d26932994ca6130974ba5d2c964b2592a954aa51289449a4d269349249249248a45229148241209047a3d1e8f472391c8e472391a8d46a351a8d46231188c46231188b45a2d168b45a2d168b45229148a45229148a45229148a45229128944a251289,
    0x7ebf1f8fb7d3e5f2f87bbd9ecf57a3d1e6f278bc5e0ef77bb9daed763add4ea74ba1d0e773399cae471b8dc4e170b81bedf6f375badc6db6db4d96cb61aed76b355aad469b4da4d268b41a0cf673399acc6632d96ca64b2590c763b198cc56231186c36130582c0602fd7cbe5eaf578bb5dae974b95cae170b75b2d96ab55a2d166b3592c962b0582bd5eae572b55aac562ad56aa552a552a85429d4ea7532994aa55229146a35128944a150a8140a04fa7d3c9e4ea753a9c4e271369b4d26934994ca6530984c25d2e974b2592c954aa552a944a251269349a4d249249249229148a452090482411e8f47a3d1e8e472391c8e472351a8d46a351a8c46231188c46231188b45a2d168b45a2d168b45a2d168a45229148a45229148a45229148a,
    0x7ebf1f8fb7d3e9f2f87bbddecf57abd1e6f2793c5e0f077bb9dced763add6ea74ba5d0e773b99cae47238dc4e270b81c0df6f379badc6e36db4da6cb61b0d76b359aad46a34da4d268b45a0cf67b399acd6632d96ca6532590c863b1d8cc562b1188c36130982c1602fd7ebe5f2f578bc5daed74ba5cae170b75bad96cb55aad168b3592c962b1582c15eaf572b95aad562b156ab552a952a9542a14ea753a994ca552a9148a351a8d44a250a8540a05027d3e9e4f2793a9d4e271389b4da6d349a4d26532984c2612e974ba5d2c964b2552a954a251289449a4d269349249249248a4522914824120904823d1e8f47a3d1c8e472391c8e46a351a8d46a351a8c46231188c46231188c4622d168b45a2d168b45a2d168b45a2d168b45229148a,
    0x7ebf5f8fb7dbe9f2f87c3ddecf67abd1e6f3793c5e2f077bbddced763b1d6ea753a5d0e873b99cae57238dc6e270b85c0df6fb79badd6e36db6da6cb65b0d76bb59aad56a34da6d269345a0d067b399ccd6633196cb6532592c86431d8cc662b1188c361b0982c1603017ebf5f2f57abc5e2ed76ba5cae570b85badd6cb65aad168b359ac964b158ac160af57ab95cad56ab158ab55aa954a954aa150a753a9d4ca652a9548a451a8d46a25128542a0502813e9f4f2793c9d4ea75389c4da6d369a4d26932994ca6130984ba5d2e964b2592c954aa5528944a251269349a4d249249249229148a45229048241209047a3d1e8f47a391c8e472391c8e46a351a8d46a351a8d46231188c46231188c46231188c45a2d168b45a2d168b45a2d168b] = true := by decide +kernel

end Mcu.Lemmas.Opp
