import Verif.Lemmas.Opponent

/-! The sign of the opponent coordinate yellow-blue, red channels 0 to 127.
Generated by tools/gen_opponent.py. -/

namespace Mcu.Lemmas.Opp

theorem rows0 : rows 0 [0x6e36db6da6cb61aed66ab51a8d369345a0cf673359acc65b2992c863b1d8cc56230d84c1603017ebe5eaf176ba5cae570b75b2d568b359ac962b057ab95aac562ad54a95429d4ca652a9146a250a813e9f4f275389b4d26530984ba592a9449a4924914823d1c8d4622d168a44a210e8642a11088341205007f3f1f8fa7c3d9e8f2783b9dcec753a1cce471381c0de6e369b0d66a351a4d06733194c86331988c2602f978ba5d2e16cb4592c15cac562a950a652289409e4f27134984b251249248239188a44219088441200fc7c3d1e0ec763a1c8e06e361a8d46833190c4602f170b85a2c158a852281409c4c251208c4421108803e1e0e870361a0d06430170b0542814098482210078381a0d0602c1409040200e06028140803018080201,
    0x6e36db6da6cb61aed66ab51a8d369345a0cf673359acc65b2992c863b1d8cc56230d84c1603017ebe5eaf176ba5d2e570b75b2d568b359ac962b057ab95aac562ad54a95429d4ca652a9146a250a813e9f4f275389b4d26530984ba592a9449a4924914823d1c8d4622d168a44a210e8642a15088341205007f3f1f8fa7c3d9e8f2783b9dcec753a1cce471389c0de6e369b0d66a351a4d06733194c86331988c2602f978ba5d2e16cb4592c15cac562a950a65228940a04f27134984b251249248239188a44219088441200fc7c3d1e0f0763a1c8e06e361a8d46833190c4602f178b85a2c158a852281409c4c251208c4422108803e1e0e870361b0d06430170b0542a140984822100783c1c0d0602c1409048200e06030140804018080201,
    0x6e36db6da6cb61aed66ab51a8d369345a0cf673399acc65b2992c863b1d8cc56230d84c1603017ebe5eaf176ba5d2e570b75b2d568b359ac962b057ab95aac562ad54a95429d4ca652a9146a250a813e9f4f275389b4d26532984ba592a9449a4924914823d1c8d4622d168a44a210e8642a15088341205007f3f1f8fa7c3d9e8f2783c1dcec753a1cce471389c0de6e369b0d66a351a4d06733194c86431988c2602f978ba5d2e16cb4592c15cae562a950a65228940a04f27134984b251249248239188a442190c8441200fc7c3d1e0f0763a1c8e06e361b0d46833190c4602f178b85a2c158a852291409c4c251208c4422108803e1e0e870381b0d06430170b0582a140984822100803c1c0d0602c160a048200e07030140a04018080401,
    0x6e36db6da6cb61aed66ab51a8d369345a0cf673399acc65b2992c863b1d8cc56230d84c1603017ebe5eaf176ba5d2e570b75b2d568b359ac962b057ab95aad562ad54a95429d4ca652a9146a250a813e9f4f275389b4d26532984ba592a9449a4924914823d1c8d4622d168a44a210e8642a15088341205007f3f1f8fa7c3d9e8f2783c1dcec753a1cce471389c0de6e369b0d66b351a4d06733194c86431988c2602f978ba5d2e16cb4592c15cae562a950a65228940a04f27134984b251289248239188a442190c8441200fc7c3d1e8f0763a1c8e06e361b0d46833190c46030178b85a2c158a854291409c4c251208c4622108803e1e0e874381b0d06430170b8582a140984822110803c1c0d06030160a048201007030180a040180c0401,
    0x6e36db6da6cb61aed66ab51a8d369345a0cf673399acc65b2992c863b1d8cc56230d84c1603017ebe5eaf176ba5d2e570b75b2d568b359ac962b057ab95aad562ad54a95429d4ca652a9146a250a813e9f4f275389b4d26532984ba592a9449a4924914823d1c8d46231168a44a210e8642a15088341205007f3f1f8fa7c3d9e8f2783c1dcec753a1cce471389c0de6e369b0d66b351a4d06733194c86431988c2602f978bc5d2e16cb4592c15cae562a950a65228944a04f27134984b251289248239188a442210c8441200fc7c3d1e8f0763a1c8e06e371b0d46833190c46030178b85a2c158a854291409c4c25120904622108803e1e0f074381b0d06430180b8582a140984c24110803c1c0e06830160a048241007038180a040200c0402,
    0x6e36db6da6cb61aed66ab51a8d369345a0cf673399acc65b2992c863b1d8cc56230d84c160b017ebe5eaf176ba5d2e570b75b2d568b359ac962b057ab95aad562ad54a95429d4ca652a9146a250a81409f4f275389b4d26532984ba592a9449a4924914823d1c8d46231168a44a210e8642a15088341205007f3f9f8fa7c3d9e8f2783c1dcec753a1cce472389c0de6e369b0d66b351a4d06733194c86431988c2602f978bc5d2e16cb4592c15cae562a950a65228944a04f27134984b251289248239188a442210c8441200fc7c3e1e8f0763a1c8e06e371b0d46833190c46230178b85a2c158ac54291409c4c25128904622108803e1f0f074381b0d06432180b8582a140a04c24110803c1e0e06830160a050241008038180a050200c0602,
    0x6e36db6da6cb61aed66ab51a8d369345a0cf673399acc65b2992c863b1d8cc56230d84c160b017ebe5eaf176ba5d2e570b75b2d568b359ac962b057ab95aad562ad54a95429d4ca652a9146a250a81409f4f275389b4d26532984ba592a9449a4d24914823d1c8d46231168a44a210e8642a15088341205007f3f9f8fa7c3d9e8f2783c1dcec753a1cce472389c0de6e369b0d66b351a4d06733194ca6431988c2602f978bc5d2e16cb4592c160ae562a950a65228944a04f27134984b259289248239188a442210c8441200fc7c3e1e8f0763a1c8e070371b0d46833190c46230178b85a2c158ac54291409c4c2512890462210880401f0f074381b0d06832180b8582a150a04c2411080401e0e06830180b050241208038180c05020100602,
    0x6e36db6da6cb61aed66ab55a8d369345a0cf673399acc65b2992c863b1d8cc56230d84c160b017ebe5eaf176ba5d2e570b75b2d568b459ac962b057ab95aad562ad54a95429d4ca652a9146a250a81409f4f275389b4d26532984ba592a9449a4d24914823d1c8d46231168a44a210e8643215088341205007f3f9f8fa7c3d9e8f2783c1dcec753a1cce472389c0de6e369b0d66b351a4d06733194ca6431988c2602f978bc5d2e16cb4592c160ae562a950a65228944a04f27134984b259289248239188a452210c8441200fc7c3e1e8f0763a1c8e070371b0d46833190c86230178b85a2c160ac54291409c4c2612890462210880401f0f074381b0d86832180b8582c150a04c2411088401e0e06834180b0502812080381c0c05020100602] = true := by decide +kernel

theorem rows8 : rows 8 [0x6e36db6da6cb61aed66ab55a8d369345a0cf673399acc65b2992c863b1d8cc56230d84c160b017ebe5eaf176ba5d2e570b75b2d568b459ac962b057ab95aad562ad54a95429d4ea652a9146a250a81409f4f275389b4d26532984ba592a9449a4d24914823d1c8d46231168a44a210e8643215088341205007f3f9f8fa7c3d9e8f2793c1dcec753a1cce472389c0de6e369b0d86b351a4d06733194ca6431988c2602f97cbc5d2e16cb4592c160ae562a950a65229144a04f27134984b259289248239188a452210c8441200fc7e3e1e8f0763a1c8e470371b0d46833190c86230178b85a2c160ac54291409c4e2612890462210884401f0f074381c0d86832180b85c2c150a04c2412088401e0e07034180b0582812080401c0c05028100603,
    0x6e36db6da6cb61aed66ab55a8d369345a0cf673399acc65b2992c86431d8cc56230d84c160b017ebe5eaf176ba5d2e570b75b2d568b459ac962b057ab95aad562ad54a95429d4ea652a9146a250a81409f4f275389b4d26932984ba592a9449a4d24914823d1c8d46231168a44a210e8643215088341205007f3f9f8fa7c3d9e8f2793c1dcec753a1cce472389c0de6e369b0d86b351a4d06733194ca6431988c2602f97cbc5d2e16cb4592c160ae562a950a65229144a04f27134984c259289248239188a452210c8441200fc7e3e1e8f0763a1c8e470371b0d46833198c86230178b85a2d160ac54291409c4e2612890462211084401f0f074381c0d86832180b85c2c150a04c2612088401e0f07034180c0582812090401c0c06028100803,
    0x6e36db6da6cb61aed66ab55a8d369345a0cf673399acc65b2992c86431d8cc56230d84c160b017ebe5eaf176ba5d2e570b75b2d568b459ac962b057ab95aad562ad54a95429d4ea652a9146a250a81409f4f275389b4d26932984ba592a9449a4d24914823d1c8d46a31168a44a210e864321508834120500803f9f8fa7c3d9e8f2793c1dcec753a1cce472389c0de6e369b0d86b351a4d06733198ca6431988c2602f97cbc5d2e16cb4592c960ae562a950a65229144a04f27134984c259289248239188c452210c8441201007e3e1e8f0763a1c8e470371b0d46833198c86230178b85c2d160ac5429140a04e2612890462211084401f0f0743a1c0d86832180c05c2c150a050261208840200f070341a0c0582814090401c0e06028140803,
    0x6e371b6da6cb61aed66ab55a8d369345a0cf673399acc65b2992c86431d8cc56230d84c160b017ebe5eaf176bb5d2e570b75b2d568b459ac962b057ab95aad562ad54a95429d4ea652a9146a250a81409f4f275389b4d26932984ba592a9449a4d24914823d1c8d46a31168a44a210e864321508834120500803f9f8fa7c3d9e8f2793c1dcec753a1cce672389c0de6e369b0d86b351a4d06733198ca6431988c2602f97cbc5d2e16cb4592c960ae562a950a65329144a04f27134984c259289248239188c452210c8441201007e3e1e8f0763a1d0e470371b0d46834198c86230178b85c2d160ac5429140a04e2612890462311084401f0f0783a1c0d86832190c05c2c150a850261208844200f070381a0c0582c1409040200e06030140803,
    0x6e371b6da6cb61aed66ab55a8d369345a0cf673399acc65b2992c86431d8cc56230d84c160b017ebe5eaf176bb5d2e570b75b2d568b459ac962b057ab95cad562ad54a95429d4ea652a9146a250a81409f4f275389b4d26932984ba592a9449a4d24914823d1c8d46a31168a44a210e864321508834120500803f9f8fa7c3d9e8f2793c1dcec753a1cce672389c0de6e369b0d86b351a4d06733198ca6431988c2603017cbc5d2e16cb4592c960ae562a950a65329144a04f271349a4c259289248239188c452210c8441201007e3e1e8f0763a1d0e470371b0d46834198c86230178bc5c2d160ac5429148a04e2612890482311084401f0f8783a1c0d86834190c05c2c160a850261209044200f078381a0c0602c1409048200e07030140804,
    0x6e371b6da6cb61aed66ab55a8d369345a0cf67b399acc65b2992c86431d8cc56230d84c160b017ebe5eaf176bb5d2e570b75b2d568b459ac962b057ab95cad562ad54a95429d4ea652a9146a250a85409f4f275389b4d26932984ba592a944a24d24914823d1c8d46a31168a44a210e874321508834120500803f9f8fa7c3d9e8f4793c1dcec753a1cce672389c0de6e369b4d86b351a4d06733198ca6431988c2603017cbc5d2e16cb45a2c960ae562a950a65329144a04f271349a4c2592892482391c8c452210c8441209007e3e1e8f0763b1d0e470371b0d46a34198c86230178bc5c2d160ac542a148a04e2612890482311084401f0f8783a1c0d86c34190c05c2e160a8502613090442010078381a0d0602c140a048201007030140a04,
    0x6e371b6da6cb61aed66ab55a8d369345a0cf67b399acc65b2992c86431d8cc56230d84c260b017ebe5eaf176bb5d2e570b75b2d568b459ac962b057ab95cad562ad54a95429d4ea652a9146a250a85409f4f275389b4d26932984ba592a944a24d24914823d1c8d46a31168a44a210e874321508834120500803f9f8fa7c3d9e8f4793c1dcec753a1cce672389c0de6e369b4d86b351a4d06733998ca6431988c2603017cbc5d2e16cb45a2c960ae562a950a85329144a04f271349a4c2592892482391c8c452210c8441209007e3e1e8f0763b1d0e470371b0d46a34198c86230180bc5c2d160ac542a148a04e261289448231108440200f8783a1c0e06c34190c05c2e160a8502813090442210078381c0d0602c160a048241007030180a04,
    0x6e371b6da6cb61aed66ab55a8d369345a0cf67b399acc65b2992c86431d8cc56230d84c260b017ebe5eaf176bb5d2e570b75b2d56ab459ac962b057ab95cad562ad54a95429d4ea652a9146a250a85409f4f275389b4d26932984ba592a944a24d24914823d1c8d46a31168a44a210e874321508834120500803f9f8fa7c3d9e8f4793c1dcec753a1d0e672389c0de6e369b4d86b351a4d06733998ca6431988c2613017cbc5d2e16cb45a2c960ae562a950a85329144a04f271389a4c2592892482411c8c452210c8442209007e3e1e8f0783b1d0e470371b0d86a34198c86230180bc5c2d160ac562a148a04e261309448231108442200f8783a1c0e06c34190c0602e160a85428130904422100783c1c0d06030160a050241007038180a05] = true := by decide +kernel

theorem rows16 : rows 16 [0x6e371b6da6cb61aed66ab55a8d369345a0cf67b399acc65b2992c86431d8cc56230d84c260b017ebe5eaf176bb5d2e570b75b2d56ab459ac962b057ab95cad562ad54a9542a14ea652a9146a250a85409f4f275389b4da6932984ba592a944a24d24914823d1c8e46a31168a44a210e874321508834120502803f9f8fa7c3d9e8f4793c1dcec753a1d0e672389c0de6e369b4d86b351a4d06733998ca6431988c2613017cbc5d2e16cb65a2c960ae562a950a85329144a04f271389a4c2592892482411c8c452210c8442209007e3e1e8f0783b1d0e470371b8d86a34198c86231180bc5c2d160b0562a148a04e271309448231108842200f8783a1d0e06c34190c8602e160b05428130904822100803c1c0d06830160b050241208038180c05,
    0x6e371b6da6cb61aed66b355a8d369345a0cf67b399acc65b2992c86431d8cc56230d84c260b017ebe5eaf176bb5d2e570b75b2d56ab459ac962b057ab95cad562ad54a9542a14ea652a9146a250a85409f4f275389b4da6932984ba592a944a24d24914823d1c8e46a31168a44a210e874321508834120502803f9f8fa7c3d9ecf4793c1dcec753a1d0e672389c0de6e371b4d86b351a4d06733998ca6431988c2613017cbc5d2e16cb65a2c960ae562a954a85329144a04f279389a4c2592892492411c8c452210c8642209007e3e1e8f4783b1d0e470371b8d86a34198c86431180bc5c2d160b0562a148a04e271309448231188842200f8783c1d0e06c341a0c8602e170b05428130984822110803c1c0e06830180b0502812080381c0c05,
    0x6e371b6da6cb61aed66b355a8d369345a0cf67b399acc65b2992c96431d8cc56230d84c260b017ebe5eaf178bb5d2e570b75b2d56ab459ac962b057ab95cad562ad54a9542a14ea652a9146a250a85409f4f275389b4da6932984ba592a954a24d24914823d1c8e46a31168a44a2110874321508834120502803f9f8fa7c3d9ecf4793c1dcec753a1d0e672389c0de6e371b4d86b351a4d06833998ca6431988c2613017cbc5d2e16cb65a2c960ae562a954a85329144a04f279389a4c2592892492411c8c452210c8642209007e3e1e8f4783b1d0e470381b8d86a34198c86431180bc5c2d168b0562a148a050271309448231188842200f87c3c1d0e06c361a0c86030170b05428140984824110803c1e0e06834180b0582812090401c0c06,
    0x6e371b6da6cb61aed66b355a8d369345a0cf67b399acc65b2992c96431d8cc56230d84c260b017ebe5eaf178bb5d2e570b75b2d56ab459ac962b057abd5cad562ad54a9542a14ea652a9146a251285409f4f275389b4da6932984ba592a954a24d24914823d1c8e46a31168a44a2110874321508834120502803f9f8fa7c3d9ecf4793c1dcec753a9d0e672389c0de6e371b4d86b351a4d06833998ca6431988c4613017cbc5d2e170b65a2c960ae562b154a85329144a04f279389a4c2592892492411c8c45221108642209007e3e1f0f4783b1d0e470381b8d86a34198cc6431180bc5c2e168b0562a148a450271309448241188842201007c3c1d0e070361a0c86030170b0542a140984c2411080401e0e07034180c0582814090401c0e06,
    0x6eb71b6da6cb61aed66b355a8d369345a0cf67b399acc65b2992c96431d8cc56230d84c260b017ebe5eaf178bb5d2e570b75b2d56ab459ac962b057abd5cad562ad54a9542a14ea652a9146a251285409f4f275389b4da6932984ba592a954a24d24914823d1e8e46a31168a44a2110874321508834120902803f9f8fa7c3d9ecf4793c1dcec753a9d0e672389c0de6f371b4d86b351a4d06833998ca6431988c4613017cbc5d2e170b65a2c960ae562b154a85329144a050279389a4c2592894492411c8c45221108642209007e3e1f0f4783b1d0e472381b8d86a341a0cc6431180bc5c2e168b0562a150a45027130944a241188842211007c3c1d0e870361a0c86430170b0582a140a04c2411088401e0f070341a0c0602c1409048200e06,
    0x6eb71b6da6cb61aed66b355a8d369345a0d067b399acc65b2992c96431d8cc56230d86c260b017ebe5eaf178bb5d2e570b75b2d96ab459ac962b057abd5cad562ad54a954aa14ea652a9146a251285409f4f275389c4da6932984ba592a954a24d24914823d1e8e46a31168a44a2110874321508834120902803f9f8fa7c3e1ecf4793c1dcec753a9d0e672389c0de6f371b4d86b351a4d26833998ca643198cc4613017cbc5d2e170b65a2c960ae562b154a85329144a050279389a4c2592894492411c8c45229108642209007e3f1f0f4783b1d0e872381b8d86a341a0cc6431180bc5e2e168b0562a150a45027130984a241188844211007c3c1e0e870361a0d06430170b8582a150a04c241208840200f070381a0d0602c160a048201007,
    0x6eb71b6da6cb61aed66b355a8d369345a0d067b399acc65b2992c96431d8cc56230d86c260b017ebe5eaf178bb5d2e570b75b2d96ab459ac962b057abd5cad562ad54a954aa14ea652a9146a251285409f4f275389c4da6932984ba592a954a24d24914823d1e8e46a31168a44a2510874321508834120902803f9f8fa7c3e1ecf4793c1dcec763a9d0e672389c0de6f371b4d86b351a4d26833998ca643198cc4613017cbc5d2e970b65a2c960ae572b154a85329144a250279389a4c2592c94492411c8c4522910864220900803f1f0f4783b1d0e872381b8d86a351a0cc6431180c05e2e168b0562b150a45027138984a241188c44211007c3e1e0e870361b0d06430180b8582c150a04c261208844200f078381c0d06030160a050241007,
    0x6eb71b6da6cb61aed66b355a8d369345a0d067b399acc65b2992c96431d8cc56230d86c260b017ebe5eaf178bb5d2e570b75b2d96ab459ac962b057abd5cad562ad54a954aa14ea652a9146a351285409f4f275389c4da6932984ba592c954a24d24914823d1e8e46a31168a44a25108743215088341a0902803f9f8fa7c3e1ecf4793c1dcec763a9d0e672389c0e06f371b4d86b351a8d26833998ca643198cc4613017cbc5d2e970b65a2c960ae572b154a85329144a250279389a4c2612c94492411c8c4622910864220900803f1f0f4783b1d8e872381b8d86c351a0cc6431188c05e2e168b0582b150a45028138984a241188c4421100803e1e0e870381b0d06432180b85c2c150a05026120904420100783c1c0d06830160b050241008] = true := by decide +kernel

theorem rows24 : rows 24 [0x6eb71b6da6cb61aed76b355a8d369345a0d067b399acc65b2994c96431d8cc56230d86c260b017ebe5eaf578bb5d2e570b75b2d96ab459ac962b0582bd5cad562ad54a954aa14ea652a9146a351285409f4f275389c4da6932984ba592c954a24d2491482411e8e46a31168a44a25108743215088341a0902803f9f8fa7d3e1ecf4793c1dcec763a9d0e672389c0e06f371b4d86b351a8d26833998ca643218cc4613017cbc5e2e970b65a2c960b0572b154a85329148a250279389a4c2612c94492411c8c4622910864220904803f1f0f4783c1d8e872381b8d86c351a0cc6431188c05e2e168b4582b150a45028138984a241208c4421108803e1e0e874381b0d06832180b85c2c150a85026130904422100803c1c0e06834180b050281208,
    0x6eb71b6da6cb61aed76b355a8d369345a0d067b399acc65b2994c96431d8cc56230d86c260b017ebe5eaf578bb5d2e570b75b2d96ab459ac962b0582bd5cad562ad54a954aa14ea652a9146a351285409f4f2753a9c4da6932984ba592c954a24d2491482411e8e46a31168a44a25108743215088341a0902803f9f8fa7d3e1ecf4793c1dcee763a9d0e672389c0e06f371b4d86b351a8d26833998ca643218cc4613017cbc5e2e970b65a2c960b0572b154a85329148a250279389a4d2612c94492411c8e4622910864221104803f1f0f4783c1d8e872381b8dc6c351a0cc6432188c05e2e170b4582b150a45228138984a251208c4422108803e1e0f074381b0d86832180c05c2c160a85028130904822110803c1e0e07034180c058281209,
    0x6eb71b6da6cb61aed76b355a8d369345a0d067b399acc65b2994c96431d8cc56230d86c260b017ebe5eaf578bb5d2e570b75bad96ab459ac962b0582bd5cad562ad54aa54aa14ea652a9146a351285409f4f2753a9c4da6932984ba592c954a24d2491482411e8e46a31168a45225108743215088341a0902803f9f8fa7d3e1ecf4793c1dcee763a9d0e672389c4e06f371b4d86b359a8d26833998ca653218cc4613017cbe5e2e970b65a2c964b0572b154a85329948a250279389a4d2612c9449241208e4622910864221104803f1f0f47a3c1d8e872381c0dc6c351a0cc6632188c05e2e170b4582b150a85228138984c251208c4422108803e1f0f074381c0d86832190c05c2e160a8542813098482411080401e0f070341a0c0582c1409,
    0x6eb71b6da6cb61aed76b355a8d369345a2d067b399acc65b2994c96431d8cc56231186c260b017ebe5eaf578bb5d2e570b75bad96ab459ac962b0582bd5cad562ad54aa54aa14ea652a9148a351285409f4f2753a9c4da6932984ba5d2c954a24d2491482411e8e46a31168a45225108743215088441a0902803f9f8fc7d3e1ecf4793c1dcee763a9d0e672389c4e06f371b4d86b359a8d26833998ca653218cc4613017cbe5e2e970b65a2c964b0572b154a85329948a250279389c4d2612c9449241208e4622910864321104803f1f0f87a3c1d8e872391c0dc6c351a0d06632188c05e2f170b4582b158a852281389c4c251208c462210880401f0f0743a1c0d86834190c0602e160b054281409848241108840200f070381a0d0602c140a,
    0x6eb71b6da6cb61aed76b355a8d369345a2d067b399acc65b2994c96431d8cc56231186c260b017ebe5eaf578bb5d2e570b75bad96ab459ac962b1582bd5cad562ad54aa54aa14ea652a9148a351285409f4f2753a9c4da6932984ba5d2c954a24d249148a411e8e46a31168a45225108743215088441a0902803f9f8fc7d3e1ecf4793c1e0ee763a9d0e672391c4e06f371b4d86c359a8d26833998cc653218cc46130180be5e2e970b65a2d164b0572b154a85429948a250279389c4d2612c9449249208e4622910884321104803f1f0f87a3c1d8e872391c0dc6c351a8d06632188c0602f170b4582c158a852281409c4c2512090462210884401f0f0783a1c0d86c34190c8602e170b0542a140984c2412088442010078381c0d06030160a,
    0x6eb71b6da6cb61b0d76b355a8d369345a2d067b399acc65b2d94c96431d8cc56231186c260b017ebe5f2f578bb5d2e570b75bad96ab459ac962b1582bd5cad562ad54aa54aa14ea652a9148a351285409f4f2793a9c4da6932984ba5d2c954a24d249148a411e8e46a31168b452251087432150a8441a0902803f9f8fc7d3e1ecf4793c1e0ee763a9d0e672391c4e06f371b4d86c359a8d26833998cc653218cc46130180be5e2e970b65a2d164b0572b154aa5429948a2502793c9c4d2612c944a249208e4622910884321104803f1f8f87a3c1d8e874391c0dc6c351a8d06632188c4602f170b45a2c158a852291409c4c2512890462211084401f0f8783a1c0e06c341a0c86030170b0582a140a04c26120904420100783c1c0e06830180b,
    0x6eb71b6da6cb61b0d76b355a8d369345a2d067b399acc65b2d94c96431d8cc56231186c260b017ebe5f2f578bb5d2e570b75bad96ab459ac962b1582bd5cad562ad56aa54aa14ea652a9148a351285409f4f2793a9c4da6932984c25d2c954a24d249148a411e8e46a31168b452251087432150a8441a0902803f9fcfc7d3e1ecf4793c9e0ee763a9d0e672391c4e06f371b4d86c359a8d26833998cc653218cc46130980be5e2e970b65b2d164b0572b154aa5429948a2502813c9c4d2612c944a249208e462291488432110480401f8f87a3c1d8ec74391c0dc6c361a8d06632190c4602f170b85a2c158a854291409c4c261289046231108440200f8783a1d0e06c361a0c86430170b8582a150a05026120904422100803c1e0e06834180b,
    0x6eb71b6da6cb61b0d76b355a8d369345a2d067b399acc65b2d94c96431d8cc562b1186c260b017ebe5f2f578bb5d2e570b85bad96ab459ac962b1582bd5cad562ad56aa54aa14ea652a9548a351285409f4f2793a9c4da6932984c25d2c954a24d249248a411e8e46a31168b452251087432150a8441a0902803f9fcfc7d3e1ecf4793c9e0ee763a9d0e673391c4e06f371b4da6c359a8d2683399ccc653218cc46130980be5e2e970b65b2d164b0572b158aa5429948a2502813c9c4d2612c964a249208e462311488432110482401f8f87a3c1e0ec74391c0dc6e361a8d06633190c4602f178b85a2c158ac54291409c4e261289048231108442200f8783c1d0e070361a0d06430180b8582c150a8502613090482211080401e0f070341a0c] = true := by decide +kernel

theorem rows32 : rows 32 [0x6eb71b6da6cb61b0d76b355a8d369349a2d067b399acc65b2d94c96431d8cc562b1186c260b017ebe5f2f578bb5d2e570b85bad96ab459ac964b1582bd5cad562ad56aa54aa14ea652a9548a351285409f4fa793a9c4da6932984c25d2c954a24d249248a411e8e46a31188b452251087432190a8441a0902803f9fcfc7d3e1ecf4793c9e0ee763a9d0e673391c4e06f371b4da6c359a8d2683399ccc653218cc46230980be5e2e970b85b2d164b0572b158aa5429948a2512813c9c4d2612c964a249208e462311488432110482401f8f87a3c1e0ec74391c0e06e361a8d06833190c4602f178b85a2c160ac5429140a04e261289448231108842200f87c3c1d0e870361b0d06432180b85c2c160a850281309848241108840200f070381a0d,
    0x6eb71b6da6cb61b0d76b355a8d369349a2d067b399acc65b2d94c96431d8cc562b1186c260b017ebf5f2f578bb5d2e570b85bad96ab459ac964b1582bd5cad562b156aa54aa14ea652a9548a351285409f4fa793a9c4da6932994c25d2c954a24d249248a411e8e46a31188b452251087432190a8441a090280401fcfc7d3e1ecf47a3c9e0ee763a9d0e873391c4e06f371b8da6c359a8d2683419ccc653218cc46230980be5e2e974b85b2d164b0572b958aa5429948a2512813c9c4d26130964a249208e472311488432110882401f8f87a3d1e0ec74391c8e06e361a8d06833190c46030178b85a2d160ac5429148a04e261309448231188842201007c3c1e0e870381b0d06832180c05c2e160a85428140984c2412088442010078381c0d,
    0x6eb71b6da6cb65b0d76b355a8d369349a2d067b399acc6632d94c96431d8cc562b1186c260b017ebf5f2f578bb5d2e572b85bad96ab459ac964b1582bd5cad562b156aa54aa14ea65329548a351285409f4fa793a9c4da6932994c25d2c954a24d269248a411e8e46a35188b452251087432190a8441a090280401fcfc7d3e1ecf47a3c9e0ee763a9d0e873391c4e06f371b8da6c359a8d2693419ccc653218cc66230980be5e2e974b85b2d164b0582b958aa5429948a4512813c9c4d26930964a2492090472311488432190882401f8f87c3d1e0ec743a1c8e06e361a8d46833190c46230178b85c2d160ac542a148a04e271309448241188842211007c3e1e0e874381b0d86832190c05c2e160b0542a140a04c26120904422100803c1c0e,
    0x6eb71b6da6cb65b0d76b355a8d369349a2d067b399acc6632d94c96431d8cc662b1186c260b017ebf5f2f578bb5d2e572b85bad96ab459ac964b1582bd5cad562b156aa54aa14ea65329548a35128540a04fa793a9c4da6932994c25d2c954a24d269248a411e8e46a35188b45225108743a190a8441a090281401fcfc7d3e1ecf67a3c9e0ee763a9d4e873391c4e06f379b8da6c359a8d2693419ccc653218cc66230980be5e2f174b85b2d164b0582b958aa542994ca4512813c9c4e26930964a2492090472311488442190882401f8fc7c3d1e0ec743a1c8e06e361b0d46833190c86230178b85c2d160ac562a148a05027130944a24118884421100803e1e0f074381c0d86834190c0602e170b0582a150a05026130904822110803c1e0e,
    0x6eb71b6da6cb65b0d76b355a8d369b49a2d067b399acc6632d94c96431d8cc662b1186c260b017ebf5f2f578bb5d2e572b85bad96ab459acd64b1582bd5cad562b156aa54aa14ea65329548a35128540a04fa793a9c4da6934994c25d2c954a24d269248a411e8e46a35188b45225108743a190a8441a090281401fcfc7d3e1ecf67a3c9e0ee763a9d4e873391c4e06f379b8da6c359a8d4693419ccc6532190c66230980be5e2f174b85b2d164b2582b958aa542994ca4512813c9c4e26930964a249249047231148844219088240200fc7c3d1e0ec763a1c8e06e371b0d46833198c86230178bc5c2d160b0562a148a45027130984a241188c4421108803e1f0f0743a1c0d86c34190c86030170b8582c150a8502813098482411088401e0f,
    0x6eb71b6da6cb65b0d76b355a8d369b49a2d067b399acc6632d94c96431d8cc662b1186c260b0180bf5f2f578bb5d2e572b85bad96ab459acd64b1582bd5cad56ab156aa54aa14ea65329548a35128540a04fa793a9c4da6934994c25d2c954a251269248a411e8e47235188b45225108843a190a8441a090481401fcfc7d3e1f0f67a3c9e0ee763b1d4e873391c4e070379b8da6c359a8d4693419ccc6532190c66230980be5f2f174b85b2d164b2582b958aa542a14ca4512813c9e4e26930964a251249047231148a44219088241200fc7c3d1e0f0763a1c8e070371b0d46834198c86230180bc5c2d168b0562a150a45027138984a241208c442210880401f0f0783a1c0e06c341a0c86430180b8582c150a85428140984c241208844200f,
    0x6eb71b6da6d365b0d76b355a8d369b49a2d067b399acd6632d94c96431d8cc662b1186c260b0180bf5f2f578bb5d2e972b85bad96ab459acd64b1582bd5cad56ab156aa54aa14ea75329548a35128542a04fa793a9c4da6934994c25d2c954a251269248a411e8e47235188b45225108843a190a8441a090481401fcfc7d3e1f0f67a3c9e0ee763b1d4e873391c4e070379b8da6c359acd4693419ccc6532990c66230980c05f2f174b85b2d168b2582b958aa552a14ca451281409e4e26930964b251249047231188a44219088241200fc7c3d1e8f0763a1c8e470371b0d46a34198c86231180bc5c2e168b0562b150a45028138984a251208c462210880401f0f8783a1d0e06c361a0d06430180b85c2c160a8542a140a04c2612090442210,
    0x6eb71b6da6d365b0d76b355a8d369b49a2d067b399acd6632d94c96431d8ec662b1186c260b0180bf5f2f578bb5d2e972b85bad96ab45a2cd64b1582bd5cad56ab156aa54aa14ea75329548a35128542a04fa793a9c4da6d34994c25d2c954aa51269248a411e8f47235188b45225128843a190a8441a0d0481401fcfc7d3e9f0f67a3c9e0ee773b1d4e873391c4e270379b8da6c359acd4693419ccc6632990c66230980c05f2f174b85b2d968b2582b958ac552a14ca451281409e4e26930964b251249047239188a44219088441200fc7c3e1e8f0763a1d0e470371b0d86a34198c86431180bc5e2e168b0582b150a45228138984c2512090462210884401f0f8783c1d0e070361b0d06432180c05c2e160b0542a150a0502613090482211] = true := by decide +kernel

theorem rows40 : rows 40 [0x6eb71b6da6d365b0d76b355a8d469b49a2d067b399acd6632d94c96431d8ec662b1186c260b0580bf5f2f578bb5d2e972b85bad96ab45a2cd64b1582bd5cae56ab156aa54aa150a75329548a35128542a04fa793a9c4da6d34994c25d2c954aa51269248a411e8f47235188b45225128843a190a8441a0d0481401fcfc7d3e9f0f67a3c9e0ee773b1d4e873391c4e270379b8da6c361acd4693419ccc6632990c66230984c05f2f174b85b2d968b2582b958ac552a14ca451289409e4e26930984b251249048239188a442190c8441200fc7e3e1e8f0763b1d0e470371b8d86a34198cc6431180c05e2e168b4582b150a852281389c4c251289046221108440200f87c3c1d0e870381b0d06832190c0602e170b0582a150a8502813098482411,
    0x6eb71b6da6d365b0d76b355a8d469b49a2d067b399ccd6632d94c96431d8ec662b1186c260b0580bf5f2f578bb5dae972b85bad96ab45a2cd64b1582bd5cae56ab156aa54aa150a75329548a35128942a04fa793a9c4e26d34994c25d2c954aa51269248a411e8f47235188b45225128843a190a8441a0d0481401fcfc7e3e9f0f67a3c9e0f0773b1d4e873391c8e270379b8da6c361acd4693419cce6632990c66230984c05f2f174b85c2d968b2582b95cac552a14ca452289409e4e26934984b251249048239188a442210c8441201007e3e1e8f0763b1d0e470381b8d86a341a0cc6431188c05e2e170b4582b158a852281409c4c261289046231108442201007c3c1e0e870381b0d86834190c86030170b8582c150a85428140984c2412,
    0x6eb71b6db6d365b0d76b355a8d469b49a2d067b399ccd6632d94c9643218ec662b1186c260b0580bf5f2f578bb5dae972b85bad96ab55a2cd64b1582bd5cae56ab156aa54aa150a75329548a35128942a04fa793a9c4e26d34994c25d2c964aa51269248a41208f47235188b45229128843a190a844220d0481401fcfc7e3e9f0f67a3c9e0f0773b1d4e873399c8e270379b8da6d361acd4693419cce6632990c66231184c05f2f174ba5c2d968b2582c15cac552a14ca652289409e4e27134984b251249248239188a452210c8441201007e3e1e8f0783b1d0e472381b8d86a351a0cc6432188c05e2f170b4582c158a852291409c4e261289048231108842211007c3e1e0e874381c0d86c341a0c86430180b85c2c160b0542a140a04c2612,
    0x6eb71b6db6d365b0d76b355aad469b49a2d067b399ccd6632d94c9643218ec662b1186c26130580bf5f2f578bb5dae972b85bad96ab55a2cd64b1582bd5eae56ab156aa54aa550a75329548a351a8942a04fa793a9c4e26d34994c25d2c964aa51269248a41208f47235188b45229128843a190a844220d0481401fcfe7e3e9f0f67a3c9e4f0773b1d4e873399c8e270379b8dc6d361acd469341a0ce6632990c66331184c05f2f174ba5c2d968b2582c15cac552a14ca652289409e4f27134984b251289248239188c452210c8441209007e3e1e8f4783b1d0e472381b8d86c351a0cc6632188c05e2f170b45a2c158a85429140a04e26128944823118884221100803e1e0f0743a1c0e06c361a0d06432180c05c2e160b0582a150a0502613,
    0x6eb71b6db6d365b0d76b355aad469b49a2d067b399ccd6632d94c9643218ec662b1186c26130580bf5f2f578bc5dae972b85bad96ab55a2cd64b1582bd5eae56ab156aa54aa550a75329548a351a8942a04fa793a9d4e26d34994c25d2e964aa51269248a45208f47235188b45a29128843a190a854220d0481401fcfe7e3e9f0f67a3c9e4f0773b1d4e874399c8e270379b8dc6d361acd469349a0ce6632990c66331184c05f2f178ba5c2d968b2592c15cac552a150a652289409e4f27134984b259289248239188c452210c8442209007e3e1f0f4783b1d0e872381b8dc6c351a0d06632188c0602f170b85a2c158ac5429148a04e26130944824118884421108803e1f0f0783a1d0e06c361a0d06832190c0602e170b8582c150a8502813,
    0x6eb71b6db6d365b0d76b355aad469b49a2d067b3d9ccd6632d94c964b218ec662b1186c26130580bf5f2f578bc5dae972b85bad96cb55a2cd64b1582c15eae56ab156aa54aa550a75329548a351a8942a04fa793a9d4e26d34994c25d2e964aa51269248a45208f47235188b45a29128843a190a854220d048140200fe7e3e9f0f67a3d1e4f0773b1d4e874399c8e270379bcdc6d361acd469349a0ce6632990c86331184c05f2f978ba5c2d968b4592c15cac552a950a65228940a04f27134984c2592892482391c8c452210c8642209007e3f1f0f4783b1d8e872381c0dc6c351a8d06632188c4602f178b85a2c160ac5429148a04e27130944a241188c442210880401f0f8783a1d0e070361b0d06834190c86030170b85c2c160a8542814,
    0x6eb71b8db6d365b0d76b355aad469b49a2d067b3d9ccd6632d94c964b218ec662b1186c36130580bf5f2f578bc5dae972b85bad96cb55a2cd64b1582c15eae56ab156aa552a550a75329548a451a8942a04fa793c9d4e26d34994c2612e964aa51269249245208f47235188c45a29128843a190c854220d048140200fe7e3e9f0f67b3d1e4f0773b1d4ea74399c8e270379bcdc6d361acd46a349a0ce6632994c86331184c0602f978ba5c2d96cb4592c15cac562a950a65228944a04f27134984c2592892482411c8c4522110864220900803f1f0f4783c1d8e872391c0dc6c351a8d06632190c46030178b85a2d160ac542a148a05027130984a241208c46221088440200f8783c1d0e870381b0d868341a0c86430180c05c2e160b0542a14,
    0x6eb71b8db6d365b0d76b359aad469b49a2d067b3d9ccd6632d94c964b218ec662b1186c36130580bf5f2f57abc5dae972b85badd6cb55a2cd64b1582c15eae56ab156aa552a550a75329548a451a8942a04fa793c9d4e26d34994c2612e964aa51269249245208f47235188c45a29128843a1d0c854220d048140a00fe7e3e9f0f67b3d1e4f0773b1d8ea74399c8e270381bcdc6d361acd66a349a0ce6632994c86331184c0602f978ba5c2d96cb4592c15cac562a950a65229144a04f271349a4c2592892492411c8c4522910864220904803f1f0f47a3c1d8e874391c0dc6c361a8d06633190c46230178b85c2d160ac562a148a45027138984a251209046221108442200f87c3c1e0e874381c0d86c341a0d06432180c0602e170b0582c15] = true := by decide +kernel

theorem rows48 : rows 48 [0x6eb71b8db6d365b0d76b359aad469b49a2d06833d9ccd6632d94ca64b218ec662b1186c36130580bf5f2f57abc5dae972b85badd6cb55a2cd64b158ac15eae56ab156ab552a550a7532954aa451a8942a04fa7d3c9d4e26d34994ca612e964aa51269349245208f472351a8c45a29128843a1d0c854220d048140a00fe7e3e9f0f87b3d1e4f0773b1d8ea74399c8e271381bcdc6d361acd66a349a0ce6633194c86331184c2602f978ba5c2e16cb4592c15cae562a950a65329144a04f271389a4c2592894492411c8c4622910864221104803f1f0f87a3c1d8ec74391c0dc6e361a8d06833190c46230178bc5c2d160b0562a150a45028138984c251209046231108442201007c3e1e0f0743a1c0e06c361a0d06832190c86030170b8582c16,
    0x6eb75b8db6d365b0d76b359aad469b49a2d06833d9ccd6632d94ca64b218ec662b1188c36130580bf5f2f57abc5dae972b85badd6cb55a2cd64b158ac15eae56ab156ab552a550a7532954aa451a8942a04fa7d3c9d4e26d34994ca612e964aa51269349245208f472351a8c45a2912884421d0c854220d048240a00fe7e3e9f0f87b3d1e4f0773b9d8ea74399c8e271381bcdc6d361b0d66a349a0ce6733194c86331188c2602f978ba5d2e16cb4592c160ae562a950a65329144a04f279389a4c2592c94492411c8e4622910864321104803f1f8f87a3c1e0ec74391c0e06e361a8d46833190c86230180bc5c2d168b0562b150a452281389c4c25128904823110884221100803e1f0f0783a1d0e070361b0d86834190c86430180b85c2e16,
    0x6eb75b8db6d365b0d76bb59aad469b49a2d06833d9ccd6632d94ca64b218ec662b1188c36130580bf5f2f97abc5dae972b85c2dd6cb55a2cd64b258ac15eae56ab158ab552a550a7532954aa451a8942a05027d3c9d4e26d349a4ca612e964aa51289349245208f472391a8c45a2912884421d0c854220d048240a00fe7e3e9f4f87b3d1e4f0773b9d8ea74399c8e471381bcdc6d369b0d66a349a0d06733194c86331188c2602f978bc5d2e16cb4592c960ae562a950a85329144a050279389a4c2612c9449241208e462291088432110480401f8f87a3d1e0ec74391c8e06e361b0d46833198c86231180bc5c2e168b0582b150a852281409c4c2612894482311888442110880401f0f8783c1d0e870381b0d86c341a0d06432180c0602e17,
    0x6eb75b8db6d365b0d76bb59aad469b49a2d16833d9ccd6632d96ca64b218ec662b1188c36130580bf5f2f97abc5dae972b85c2dd6cb55a2cd64b258ac15eae56ab158ab552a550a7532994aa451a8942a05027d3c9d4e26d349a4ca612e964aa51289349245208f472391a8c45a2912894421d0c854220d068240a00fe7e3f1f4f87b3d1e4f0783b9d8ea74399cce471381bcdc6d369b0d66a349a0d06733194c86331988c2602f978bc5d2e16cb45a2c960ae562a954a85329144a250279389a4c2612c9449241208e462291488432110482401f8f87a3d1e0ec743a1c8e06e371b0d46834198c86431180bc5e2e168b4582b158a852291409c4e261309448241188c442210880401f0f8783c1e0e874381c0e06c361a0d06832190c8603017,
    0x6f375b8db6d365b0d76bb59aad469b49a2d16833d9ccd6632d96ca64b218ec662b1588c36130580bf5faf97abc5dae972b95c2dd6cb55a2cd64b258ac15eae56ab158ab552a550a7532994aa451a8942a05027d3c9d4e26d369a4ca612e964aa55289349245208f47a391a8c45a2912894421d0c8542211068240a00fe7e3f1f4f87b3d1e4f2783b9d8ea74399cce471381bcdc6e369b0d66a349a4d06733194c86431988c2602f97cbc5d2e16cb45a2c960ae562b154a85329148a250279389a4d2612c9449249208e462291488432110882401f8f87c3d1e0ec763a1c8e070371b0d46a34198cc6431180c05e2e170b4582c158a85429140a04e27130944a241208c44221088440200f87c3c1e0f0743a1c0e070361b0d86834190c8643018,
    0x6f375b8db6d365b0d86bb59aad469b49a4d16833d9ccd6632d96ca64b218ec662b1588c36130580bf5faf97abc5dae972b95c2dd6cb55a2cd66b258ac15eae56ab558ab552a550a753a994aa451a8942a15027d3c9d4e26d369a4ca612e964aa55289349245209047a391a8c45a2914894421d0c8542211068240a00fe7f3f1f4f87b3d1e4f2783b9d8ea743a1cce471381bcde6e369b0d66a351a4d06733194ca6431988c2603017cbc5d2e16cb65a2c960ae572b154a85329148a250279389c4d2612c944a249208e462311488432190882401f8fc7c3d1e0f0763a1c8e470371b0d86a341a0cc6431188c05e2f170b45a2c158ac5429148a05027130984a251208c46221108442201007c3e1f0f0783a1d0e870381b0d86c341a0d0643218,
    0x6f375b8db6d365b0d86bb59aad469b49a4d16833d9ccd6633196ca64b218ec66331588c36130580bf5faf97abc5dae972b95c2dd6cb55a2cd66b258ac15eae56ab558ab552a550a753a994aa451a8942a15027d3c9d4e271369a4ca612e964b255289349245209047a391a8c45a2914894421d0c8542a11068240a00fe7f3f1f4f87b3d1e8f2783b9d8ea753a1cce471381bcde6e369b0d66a351a4d06733194ca6431988c2613017cbc5d2e170b65a2c960b0572b154a85329948a2502793c9c4d2612c964a249208e47231148844219088240200fc7c3d1e8f0763a1d0e470371b8d86a351a0cc6432188c0602f170b85a2c160ac542a148a05027138984c25120904623110884221100803e1f0f8783c1d0e874381c0e06c361b0d0683219,
    0x6f375b8db6d365b0d86bb59aad469b49a4d16833d9ccd6633196ca64b218ec66331588c36130580c05faf97abc5dae974b95c2dd6cb55a2d166b258ac15eae572b558ab552a550a853a994aa451a8944a15027d3c9d4e271369a4ca612e964b255289349245229047a391a8c45a2d14894421d0c8542a11068240a01007f3f1f4f87b3d9e8f2783b9d8ea753a1cce471381c0de6e369b0d66b351a4d06733198ca6431988c2613017cbc5d2e970b65a2c960b0572b154a85429948a2502813c9c4d26130964a249209047231148a44219088241200fc7c3e1e8f0763b1d0e470381b8d86c351a0cc6632188c4602f178b85a2d160ac562a148a45028138984c2512890482311888442110880401f0f87c3c1e0f0743a1c0e070361b0d868341a] = true := by decide +kernel

theorem rows56 : rows 56 [0x6f375b8db6d365b2d86bb59aad469b4da4d16833d9ccd6633196ca64b218ec66331588c36130580c05faf97abc5dae974b95c2dd6cb55a2d166b258ac15eae572b558ab552a550a853a994aa451a8944a15027d3c9d4ea71369a4ca612e974b255289349245229047a391a8c4622d14894421d0c8642a11068240a05007f3f1f4f87b3d9e8f2783b9d8ec753a1cce471389c0de6e369b0d86b351a4d06733998ca6431988c4613017cbc5e2e970b65a2c964b0572b154aa5429948a2512813c9c4d26930964a249249047231188a44219088441200fc7e3e1e8f0783b1d0e472381b8dc6c351a0d06632190c46030178b85c2d160b0562a150a452281389c4c261289448241188c44221088440201007c3e1e0f0783a1d0e870381c0d86c361a,
    0x6f375b8db6d365b2d86bb59aad469b4da4d16833d9ccd66b3196ca64b218ec76331588c36130582c05faf97abc5daed74b95c2dd6cb55aad166b258ac15eaf572b558ab552a552a853a994aa451a8d44a15027d3c9d4ea71369a4ca612e974b255289349249229047a391a8c4622d14894421d0e8642a11068240a05007f3f1f4f87c3d9e8f2783b9dcec753a1cce472389c0de6e369b4d86b351a4d06833998ca643198cc4613017cbe5e2e970b65a2d164b0572b158aa5429948a4512813c9c4e26930964a251249047239188a442190c8441201007e3e1e8f4783b1d0e872381c0dc6c351a8d06633190c46230178bc5c2d168b0562b150a852281409c4e26130944a241208c4622110844220100803e1f0f8783c1e0e8743a1c0e06c361b,
    0x6f375b8db6d369b2d86bb59aad469b4da4d16833d9ccd66b3196ca64b218ec76331588c36130582c05faf97abc5daed74b95c2dd6cb55aad166b258ac15eaf572b558ab552a552a853a994aa45228d44a15027d3c9e4ea71369a4ca6130974b255289349249229047a391a8d4622d14894421d0e8642a11068241205007f3f1f4fa7c3d9e8f2783b9dcec753a1cce472389c0de6e369b4d86b351a4d26833998ca643218cc4613017cbe5e2e970b65b2d164b0572b958aa542994ca4512813c9e4e26930964b251249047239188a442210c8441209007e3e1f0f4783b1d8e872391c0dc6c361a8d06833190c86230180bc5c2e168b0582b158a85229140a04e27130944a2412090462311088422110080401f0f87c3c1e0f0743a1d0e070381b,
    0x6f375b8db6d369b2d86bb59aad46a34da4d16833d9cce66b3196ca64b2190c76331588c36130982c05faf97abc5e2ed74b95c2dd6cb65aad166b258ac160af572b558ab552a952a853a994aa45228d44a15027d3c9e4ea71369a4ca6530974b255289349a49229047a391a8d4622d1489442210e8642a11068341205007f3f1f4fa7c3d9e8f2783c1dcec753a1cce672389c0de6e371b4d86b351a4d26833998ca653218cc46130180be5e2e970b85b2d164b0582b958aa542a14ca451281409e4e26930984b251249048239188a452210c8442209007e3f1f0f4783c1d8e874391c0dc6e361a8d46833198c86231180bc5e2e168b4582c158a85429148a05027130984a251209046231188844211088440201007c3e1f0f0783c1d0e874381c,
    0x6f375b8db6d369b2d86bb59aad46a34da4d16833d9cce66b3196ca64b2190c76331588c36130982c05faf97abc5e2ed74b95c2dd6cb65aad166b258ac160af572b558ab552a952a853a994aa55228d44a15027d3e9e4ea71369a4ca6530974b255289449a49229047a391c8d4622d148944a210e8642a11068341205007f3f1f8fa7c3d9e8f2793c1dcec753a1d0e672389c0de6f371b4d86b351a8d26833998ca653218cc46130980be5e2e974b85b2d164b0582b958aa542a14ca451289409e4e26934984b251249248239188c452210c864220900803f1f0f47a3c1d8ec74391c0e06e361b0d46834198c86431180c05e2e170b4582c158ac542a148a05027138984c251289048231188c4422108844220100803e1f0f8783c1e0e8743a1c,
    0x6f375b8db6db69b2d86bb59aad56a34da4d16833d9ece66b3196ca64b2190c76331588c36130982c05faf97abd5e2ed74b95c2dd6eb65aad166b258ac560af572b558ab55aa952a853a994aa55228d44a15027d3e9e4ea71369a4d26530974b255289449a49229047a3d1c8d4622d148944a210e8642a11088341205007f3f9f8fa7c3d9e8f4793c1dcec753a9d0e672389c0e06f371b4d86b359a8d26833998cc653218cc46230980be5e2e974b85b2d164b2582b958aa552a14ca451289409e4e27134984b2512892482391c8c4522110864220904803f1f0f87a3c1d8ec74391c8e06e371b0d46a34198cc6431188c05e2f170b45a2c160ac562a148a450281389c4c261289448241208c46221108842211088040200f87c3e1e0f0783a1d,
    0x6f375b8db6db69b2d86bb59aad56a34da4d16833d9ece66b3196ca64b2590c76331588c361b0982c05faf97abd5e2ed74b95c2dd6eb65aad166b258ac560af572b558ab55aa952a853a994ca55228d44a1502813e9e4ea71369a4d26530974b2552a9449a49229047a3d1c8d4622d148a44a210e8642a15088341205007f3f9f8fa7c3d9e8f4793c1dcec753a9d0e672389c0e06f371b4d86c359a8d2683399ccc653218cc66230980be5e2f174b85b2d168b2582b958ac552a14ca452289409e4f27134984b2592892482411c8c4522910864221104803f1f8f87a3c1e0ec743a1c8e070371b0d86a341a0cc6432188c0602f170b85a2d160ac562a150a452281409c4e26130944a24120904623110884421108844020100803e1f0f8783c1e,
    0x6f375b8dc6db69b2d86bb59aad56a34da4d16833d9ece66b3196ca64b2590c76331588c361b0982c05faf97abd5e2ed74b95c2e16eb65aad166b2592c560af572b558ac55aa952a853a994ca55228d44a150a813e9e4ea71369b4d26530974b2552a9449a4922904823d1c8d4622d168a44a210e8642a1508834120500803f9f8fa7c3d9ecf4793c1dcec763a9d0e672389c4e06f371b4da6c359a8d2683419ccc6532190c66230980be5f2f174b85b2d968b2582b95cac552a14ca65228940a04f27134984c2592892492411c8c462291086432110480401f8f87a3d1e0ec763a1c8e470371b8d86a351a0cc6632188c4602f178b85c2d160b0562b150a85229140a04e27130984a251209048231188c442211084422110080401f0f87c3c1e] = true := by decide +kernel

theorem rows64 : rows 64 [0x6f375b8dc6db69b2d86bb59acd56a34da4d1683419ece66b3196ca6532590c76331588c461b0982c05faf97cbd5e2ed74b95c2e16eb65aad166b2592c560af572b558ac55aa952a853a9d4ca55228d44a150a813e9e4ea71389b4d26530974b2592a9449a4922914823d1c8d4622d168a44a210e864321508834120502803f9f8fa7c3e1ecf4793c1dcee763a9d0e672391c4e06f371b4da6c359a8d2693419ccc6532190c66230980c05f2f174b85c2d968b2582c15cac552a150a65228944a04f271349a4c2592894492411c8e462291088432110482401f8f87c3d1e0f0763a1d0e470371b8d86a351a0d06632190c46030178bc5c2d168b0582b158a85429148a05027138984c251289448241188c46221108842211088440201007c3e1f,
    0x6f375b8dc6db69b2d86bb59acd56a34da4d1683419ece66b3196ca6532590c76331588c461b0982c05faf97cbd5e2ed74b95cae16eb65aad166b3592c560af572b55aac55aa952a853a9d4ca55228d44a250a813e9e4ea71389b4d26530974ba592a9449a4922914823d1c8d46231168a44a210e874321508834120902803f9f8fa7d3e1ecf4793c1e0ee763a9d0e673391c4e06f371b8da6c359a8d4693419ccc6532990c66230984c05f2f174ba5c2d968b2592c15cac552a950a65229144a04f271389a4c2592c9449241208e462291488432110882401f8fc7c3d1e8f0763b1d0e470381b8d86c351a8d06633190c46230180bc5c2e168b4582c158ac5429148a450281389c4c26128944a2412090462311888442210884422110080401f,
    0x6f375badc6db69b2d86bb5dacd56a34da4d168b419ece66b3196cb6532590c7633158ac461b0982c05fafd7cbd5e2ed74b95cae16eb65aad166b3592c560af572b95aac55aa952a85429d4ca55228d44a250a813e9e4ea75389b4d26530974ba592a9449a4924914823d1c8d46a31168a44a210e874321508834120902803f9f8fa7d3e1ecf4793c1e0ee763a9d0e873391c4e06f379b8da6c359a8d4693419ccc6632990c66231184c05f2f178ba5c2d968b4592c15cac562a950a65229144a04f279389a4c2612c9449249208e46231148843219088240200fc7c3e1e8f0783b1d0e472381b8dc6c351a8d06833190c86231180bc5e2e170b45a2c158ac542a148a450281409c4e26130944a251209048231188c4622110884221108804020,
    0x6f375badc6db69b2d86bb5dacd56a34da4d168b419ece66b3196cb6532590c7633158ac461b0982c05fafd7cbd5e2ed74ba5cae16eb65aad168b3592c560af572b95aac55aa952a85429d4ca55228d46a250a813e9e4ea75389b4d26530984ba592a9449a4d24914823d1c8d46a31168a44a21108743215088341a0902803f9f8fc7d3e1ecf4793c9e0ee763a9d0e873391c4e070379b8da6c359acd4693419cce6632990c66331184c05f2f978ba5c2d96cb4592c15cae562a950a65329144a050279389a4d2612c944a249208e47231148844219088241200fc7e3e1e8f4783b1d0e872381c0dc6c361a8d46833198c86231180c05e2f170b45a2c160ac562a150a45228140a04e27130984c251289448241208c4623110884422108844220,
    0x6f379badc6db69b2d86c35dacd56a34da4d268b419ece66b3198cb6532590c7633198ac461b0982c0602fd7cbd5e2ed74ba5cae16eb65aad168b3592c560af57ab95aac55aa952a95429d4ca55228d46a250a813e9e4f275389b4d26532984ba592a9449a4d24914823d1c8e46a31168a44a25108743215088441a0902803f9fcfc7d3e1ecf47a3c9e0ee763a9d4e873391c4e270379b8da6c361acd469341a0ce6632990c86331184c0602f978ba5c2e16cb4592c160ae562a950a85329144a250279389c4d2612c964a249209047231148a44219088441201007e3e1f0f4783b1d8e872391c0dc6e361b0d46834198c86431188c0602f170b85a2d160b0562b150a85229140a05027138984c26128944a241209048231188c4422110884221,
    0x6f379badc6db69b2d86c35dacd56a34da4d268b419ece66b3198cb6532590c7633198ac461b0982c0602fd7cbd5e2ed76ba5cae16eb65aad568b3592c560af57ab95aac55aa954a95429d4ca55229146a250a813e9f4f275389b4d26532984ba592a944a24d24914823d1e8e46a31168a44a25108743215088441a090280401fcfc7d3e1ecf67a3c9e0ee763b1d4e873391c4e270379b8da6d361acd469349a0ce6632990c86331184c0602f978ba5d2e16cb4592c960ae562a954a85329148a2502793c9c4d26130964a249249047231188a442190c8441209007e3e1f0f4783c1d8e874391c0e06e371b0d46a34198cc6432188c0602f178b85c2d168b0582b158a85429148a450281389c4e26130984a251289048241208c4623110884422,
    0x6fb79badc6db69b2d96c35dacd56a34da6d268b419ece66b3598cb6532590c763b198ac461b0982c1602fd7cbd5e2ed76ba5cae16eb65aad568b3592c560b057ab95aac55aa954a95429d4ca552a9146a250a813e9f4f275389b4d26932984ba592a954a24d24914823d1e8e46a31168a452251087432150a8441a090280401fcfc7d3e1ecf67a3c9e0ee773b1d4e873391c8e270379b8dc6d361acd469349a0ce6632994c86331184c2602f978ba5d2e16cb45a2c960ae562b154a85329948a2502813c9c4d26930964a251249047239188a442210c8442209007e3f1f0f47a3c1d8ec74391c8e070371b0d86a341a0cc6632188c46030178bc5c2e168b4582c158ac542a148a452281409c4e27130984c25128944a241209048231188c4422,
    0x6fb79badc6db69b2d96c35dacd56a34da6d268b419ece66b3598cb6532590c763b198ac461b0984c1602fd7cbd5e2f176ba5cae16eb65b2d568b3592c560b057ab95aac55aad54a95429d4ca552a9146a250a81409f4f275389b4da6932984ba592a954a24d2491482411e8e46a31168b452251087432190a8441a090281401fcfc7d3e1f0f67a3c9e0f0773b1d4e873399c8e270379bcdc6d361acd46a349a0ce6633194c86331188c2602f978bc5d2e16cb65a2c960ae572b154a85429948a2512813c9c4e26930964b251249048239188a452210c864220900803f1f0f87a3c1e0ec743a1c8e070371b8d86a351a0d06632190c46230180bc5e2e170b45a2c160ac562a150a45229140a050271389c4c26130944a251289048241208c4623] = true := by decide +kernel

theorem rows72 : rows 72 [0x6fb79badc6db69b2d96c35dacd56a351a6d268b419ece6733598cb6532590c863b198ac461b0984c1602fd7cbd5e2f176ba5cae16eb75b2d568b3592c562b057ab95aac55aad54a95429d4ca652a9146a250a85409f4f275389b4da6932984ba592c954a24d249148a411e8e46a31188b45225108743a190a8441a090481401fcfc7d3e9f0f67a3c9e0f0773b1d4e874399c8e270379bcdc6d361acd66a349a0ce6733194c86331988c2602f97cbc5d2e170b65a2c960b0572b154aa5429948a4512813c9c4e26930984b251249248239188c4522110864220904803f1f8f87a3d1e0ec763a1c8e470381b8d86c351a8d06633190c86231180c05e2f170b85a2d160b0562b150a85429148a050281389c4e26130984c25128944a24120904623,
    0x6fb79badc6db69b4d96c35dacd56a351a6d268b419ece6733598cb6532590c863b198ac461b0d84c1602fd7cbd5eaf176ba5cae16eb75b2d568b3592c962b057ab95aac562ad54a95429d4ea652a9146a250a85409f4f275389c4da6932984ba5d2c954a24d249148a411e8e46a31188b45225108743a190a8441a0d0481401fcfc7e3e9f0f67a3c9e4f0773b1d4ea74399c8e270381bcdc6d361b0d66a349a0d06733194c86431988c2603017cbc5d2e970b65a2c964b0572b158aa5429948a4512813c9e4e26934984b2512892482391c8c452291086422110480401f8f87c3d1e0f0763a1d0e472381b8dc6c361a8d06833198c86431180c05e2f170b85a2d168b0582b158a8542a148a45228140a04e27138984c26130944a25128904824,
    0x6fb79badc6db69b4d96c35dacd56ab51a6d268b419ecf6733598cb6532592c863b198ac461b0d84c1602fd7cbd5eaf176ba5cae170b75b2d568b3592c962b057ab95aad562ad54a95429d4ea652a9146a251285409f4f2753a9c4da6932984ba5d2c954a24d249248a411e8e46a35188b45225108843a190a8441a0d0481401fcfe7e3e9f0f67a3d1e4f0773b1d8ea74399c8e271381bcdc6d369b0d66a349a4d06733194ca6431988c2613017cbc5d2e970b65a2d164b0572b958aa542994ca451281409e4e27134984b2592892482411c8c462291086432110482401f8fc7c3d1e8f0763b1d0e872381c0dc6c361a8d46834198c86431188c0602f178b85c2d168b4582c158ac562a150a45229140a050281389c4e26130984c25128944a24,
    0x6fb79badc6db6db4d96c35dacd56ab51a6d268b419ecf6733598cb6532592c863b198ac46230d84c1602fd7cbe5eaf176ba5cae170b75b2d568b359ac962b057ab95aad562ad54a9542a14ea652a9146a251285409f4f2753a9c4da6932984c25d2c954a24d269248a411e8e47235188b45225128843a190a844220d0481401fcfe7e3e9f0f67b3d1e4f0773b1d8ea74399c8e471381bcdc6e369b0d66a351a4d06733198ca6431988c4613017cbc5e2e970b65b2d164b0582b958aa542a14ca451289409e4e27134984c2592892492411c8e46229108843211088240200fc7c3e1e8f0783b1d8e872391c0dc6e361b0d46a34198cc6432188c46030178bc5c2e168b45a2c160ac562b150a85429148a45028140a04e27138984c26130944a25,
    0x6fb79badc6db6db4d96c35dacd66ab51a6d268b41a0cf6733598cb6532992c863b198ac46230d84c1602fd7ebe5eaf176ba5cae570b75b2d568b359ac962b057ab95cad562ad54a9542a14ea652a9146a351285409f4f2793a9c4da6932994c25d2c954a251269248a411e8f47235188b45229128843a190a854220d048140200fe7e3e9f0f87b3d1e4f0773b9d8ea74399cce471381bcde6e369b0d66b351a4d06733998ca643198cc4613017cbe5e2e970b85b2d164b2582b958aa552a14ca452289409e4f271349a4c259289449241208e46229148843219088241200fc7e3e1e8f4783b1d8e874391c0e06e371b0d86a341a0cc6632190c46230180bc5e2e170b45a2d160b0562b158a8542a148a45229140a050281389c4e27130984c25,
    0x6fb79badc6e36db4d96c35dacd66ab51a6d268b41a0cf6733598cb65b2992c863b198ac56230d84c1602fd7ebe5eaf176ba5d2e570b75b2d568b459ac962b057abd5cad562ad54a954aa14ea652a9148a351285409f4fa793a9c4da6932994c25d2c954a251269248a411e8f47235188b45229128843a190c854220d048140a00fe7e3e9f0f87b3d1e4f0783b9d8ea743a1cce471381c0de6e369b0d86b351a4d06833998ca643218cc46130180be5e2e974b85b2d168b2582b958ac552a14ca65228940a04f271389a4c2592c9449249208e46231148844219088441201007e3e1f0f4783c1d8ec74391c8e070371b0d86a351a0d06633190c86231180c05e2f170b85c2d168b0582c158ac562a150a85229148a45028140a04e271389c4c26,
    0x6fb79badc6e36db4d96c35daed66ab51a6d268b45a0cf6733598cb65b2992c863b198ac56230d84c1603017ebe5eaf176ba5d2e570b75b2d56ab459ac962b057abd5cad562ad54aa54aa14ea652a9148a351285409f4fa793a9c4da6934994c25d2c954aa51269248a41208f47235188b45a29128843a190c854220d048240a00fe7e3e9f4f87b3d1e4f2783b9d8ea753a1cce471381c0de6e369b0d86b351a4d26833998ca653218cc46130980be5e2f174b85b2d168b2582b95cac552a150a65228944a04f279389a4c2612c944a249208e47231148a442190c8441209007e3f1f0f47a3c1e0ec743a1c8e470371b8d86c351a8d06833198c86431188c0602f178b85c2e168b4582c160ac562b150a8542a148a45229140a050281389c4e27,
    0x6fb79badd6e36db4d96c35daed66ab51a6d268b45a0cf6733598cc65b2992c863b198cc56230d84c1603017ebe5eaf176bb5d2e570b75b2d56ab459ac962b0582bd5cad562ad54aa54aa14ea652a9548a35128540a04fa793a9c4da6d34994c25d2c964aa51269248a45208f47235188c45a29128843a1d0c854220d068240a00fe7e3f1f4f87b3d1e8f2783b9d8ea753a1cce471389c0de6e369b4d86b351a4d26833998cc653218cc46230980be5f2f174b85b2d968b2582c15cac552a950a65229144a050279389a4d2612c964a249209047231188a442210c844220900803f1f0f87a3d1e0ec763a1d0e470381b8dc6c361a8d46834198cc6432188c46030178bc5c2e170b45a2d160b0582b158ac542a150a85229148a45028140a04e27] = true := by decide +kernel

theorem rows80 : rows 80 [0x6fb79badd6e36db4d96c361aed66ab51a6d269345a0cf6733598cc65b2992c863b1d8cc56230d84c160b017ebe5eaf176bb5d2e570b75b2d96ab459ac962b0582bd5cad562ad56aa54aa14ea65329548a35128542a04fa793a9c4e26d34994c25d2e964aa51269249245208f472351a8c45a2912884421d0c854220d068240a00fe7f3f1f4f87b3d9e8f2783b9d8ec753a1cce472389c0de6e371b4d86b351a8d2683399ccc653218cc66230980c05f2f174b85c2d968b2592c15cac562a950a65329144a250279389c4d26130964a249249047239188a452210c864220904803f1f8f87c3d1e0f0763b1d0e472381c0dc6e361a8d46834198cc6432190c46230180bc5e2f170b85a2d168b0582c158ac562b150a8542a148a45229140a05028,
    0x6fb79bcdd6e36db4d96c361aed66ab51a6d269345a0cf673359acc65b2992c863b1d8cc56230d84c160b017ebe5eaf178bb5d2e570b75b2d96ab459ac962b1582bd5cad562b156aa54aa14ea75329548a35128542a04fa793a9c4e26d34994c25d2e964aa51269249245208f472391a8c45a2912894421d0c8542211068240a01007f3f1f4f87b3d9e8f2783b9dcec753a1cce672389c0de6f371b4d86b359a8d2683419ccc6532190c66230984c05f2f174ba5c2d968b4592c15cae562a950a85329148a2502793c9c4d26130964a251249048239188c452211086422110480401f8f87c3d1e8f0763b1d0e872391c0e06e361b0d46a341a0cc6632190c86231180c05e2f178b85c2e168b45a2c160b0562b158ac542a150a85429148a45228,
    0x6fb79bcdd6e36db4d96cb61aed66ab51a6d369345a0cf673359acc65b2992c86431d8cc56230d84c260b017ebe5eaf578bb5d2e570b75bad96ab459ac964b1582bd5cad562b156aa54aa14ea75329548a35128942a04fa793a9d4e26d34994c2612e964aa51269349245208f472391a8c45a2914894421d0c8542a11068240a05007f3f1f4f87c3d9e8f2783c1dcec753a1d0e672389c0e06f371b4d86c359a8d2693419ccc6532990c66231184c05f2f178ba5c2d96cb4592c160ae562a954a85329948a2502813c9c4d26930964b2512492482391c8c452291086432110482401f8fc7c3e1e8f0783b1d8e874391c0e06e371b0d86a351a0d06633190c86431188c06030178bc5c2e170b45a2d168b0582c158ac562b158a8542a150a45229,
    0x6fb7dbcdd6e36db4d96cb61aed66ab51a8d369345a0cf673399acc65b2992c86431d8cc56230d86c260b017ebe5eaf578bb5d2e570b85bad96ab459ac964b1582bd5cad56ab156aa54aa150a75329548a351a8942a04fa793c9d4e26d34994ca612e964aa51289349245208f47a391a8c45a2914894421d0c8642a11068240a05007f3f1f4fa7c3d9e8f2793c1dcec753a9d0e672389c4e06f371b4da6c359a8d2693419ccc6632990c66331184c05f2f978ba5c2e16cb4592c960ae562b154a85429948a2512813c9c4e26930984b2512892482411c8c46229108843211088240200fc7e3e1e8f4783c1d8ec74391c8e070371b8d86c351a8d06833198c86432188c46030180bc5e2f170b85c2d168b4582c160b0582b158ac562a150a85429,
    0x7037dbcdd6e36db4da6cb61aed66ab51a8d369345a0cf673399acc65b2992c96431d8cc56230d86c260b017ebe5f2f578bb5d2e570b85bad96ab459acd64b1582bd5cae56ab156aa54aa550a75329548a351a8942a04fa793c9d4e26d349a4ca612e964aa55289349245209047a391a8c45a2d14894421d0e8642a11068241205007f3f1f8fa7c3d9e8f4793c1dcec763a9d0e672391c4e06f371b8da6c359a8d4693419cce6632990c66331184c0602f978ba5d2e16cb45a2c960ae572b154a85429948a4512813c9e4e26934984b2592892492411c8e46229148843219088241201007e3e1f0f47a3c1d8ec743a1c8e470381b8dc6c361a8d46834198cc6432190c46230180c05e2f178b85c2e170b45a2d168b0582c160ac562b158a8542a,
    0x7037dbcdd6e36db4da6cb61aed66ab55a8d369345a0cf67b399acc65b2992c96431d8cc56231186c260b017ebe5f2f578bb5d2e572b85bad96ab45a2cd64b1582bd5cae56ab156aa54aa550a75329548a451a8942a04fa7d3c9d4e26d349a4ca612e964aa55289349245229047a391a8c4622d1489442210e8642a11068341205007f3f9f8fa7c3d9ecf4793c1dcee763a9d0e673391c4e06f379b8da6c359acd469341a0ce6632990c86331184c2602f978bc5d2e16cb65a2c960b0572b154aa542994ca451281409e4e27134984c259289449241208e46231148844219088441209007e3f1f0f87a3c1e0ec763a1d0e472381c0dc6e361b0d46a341a0cc6633190c86231188c06030178bc5e2e170b85c2d168b45a2c160b0582c158ac562b,
    0x7037dbcdd6e36db6da6cb61aed66ab55a8d369345a0d067b399acc65b2994c96431d8cc562b1186c260b017ebf5f2f578bb5d2e972b85bad96ab45a2cd64b1582bd5eae56ab156aa552a550a7532954aa451a8942a05027d3c9d4e26d369a4ca612e964b255289349249229047a391a8d4622d1489442210e8642a1108834120500803f9f8fa7c3e1ecf4793c1e0ee763a9d0e873391c4e070379b8da6c361acd469349a0ce6632994c86331188c2602f97cbc5d2e170b65a2c964b0572b158aa542a14ca451289409e4f271349a4c2592c9449249208e47231148a442190c844220900803f1f8f87a3d1e0f0763b1d0e872391c0e06e371b0d86a351a0d06633198c86431188c46030180bc5e2f178b85c2e170b45a2d168b4582c160b0562b,
    0x7037dbcdd6e36db6da6cb61aed66b355a8d369345a0d067b399acc65b2d94c96431d8cc562b1186c260b0180bf5f2f578bb5d2e972b85bad96ab55a2cd64b1582c15eae56ab156ab552a550a7532994aa451a8942a15027d3c9d4e271369a4ca612e974b255289349249229047a391c8d4622d148944a210e8642a1508834120502803f9f8fa7c3e1ecf4793c1e0ee763a9d4e873391c4e270379b8da6d361acd46a349a0ce6633194c86331988c2603017cbc5d2e970b65a2d164b0572b958aa552a14ca45228940a04f271389a4c2612c944a249209047231188a442210c86422090480401f8f87c3d1e8f0783b1d8e872391c0e06e371b8d86c351a8d06833198cc6432190c46231180c0602f178bc5e2e170b85c2d168b45a2d160b0582c] = true := by decide +kernel

theorem rows88 : rows 88 [0x7037dbcdd6e371b6da6cb61aed66b355a8d369345a2d067b399acc65b2d94c96431d8cc662b1186c260b0180bf5f2f578bb5dae972b85bad96cb55a2cd64b158ac15eae56ab156ab552a550a7532994aa451a8942a15027d3c9d4ea71369a4ca6130974b255289349a49229047a3d1c8d4622d148a44a210e864321508834120502803f9f8fa7d3e1ecf4793c9e0ee763a9d4e873391c8e270379b8dc6d361acd66a349a0ce6733194c86431988c2613017cbc5e2e970b65b2d164b0582b958ac552a14ca65228944a04f279389a4d2612c964a249249047239188a452210c86422110480401f8fc7c3e1e8f4783b1d8e874391c8e070371b8dc6c361a8d468341a0cc6632190c86231188c06030180bc5e2f178b85c2e170b85a2d168b45a2c,
    0x7037dbcdd6eb71b6da6cb61aed76b355a8d369345a2d067b399acc6632d94c96431d8cc662b1186c260b0580bf5f2f578bc5dae972b85bad96cb55a2cd64b158ac15eae56ab158ab552a550a753a994aa451a8944a15027d3c9d4ea71369a4ca6530974b255289449a49229047a3d1c8d4622d168a44a210e874321508834120902803f9f8fc7d3e1ecf47a3c9e0ee763b1d4e873399c8e270379bcdc6d361b0d66a349a0d06733194ca6431988c4613017cbe5e2e970b85b2d164b2582b95cac552a150a65229144a050279389c4d2612c964a251249048239188c45221108643211048240200fc7e3e1e8f4783c1d8ec743a1c8e470381b8dc6e361b0d46a341a0d06633198c86432188c46230180c0602f178bc5e2f170b85c2e170b45a2d,
    0x7037dbcdd6eb71b6da6cb61b0d76b355a8d369349a2d067b399acd6632d94c96431d8ec662b1186c26130580bf5f2f578bc5dae972b85badd6cb55a2cd64b258ac15eae56ab558ab552a550a853a994aa451a8d44a15027d3c9e4ea71369a4ca6530974b2552a9449a4922904823d1c8d46231168a44a210e8743215088341a0902803f9fcfc7d3e1ecf67a3c9e0ee773b1d4e874399c8e270381bcdc6d369b0d66a349a4d06733198ca643198cc46130180be5e2e974b85b2d168b2582c15cac552a950a65329144a250279389c4d26130964b2512492482391c8c45229108843211088241201007e3e1f0f47a3c1e0ec763a1d0e472381c0dc6e371b0d86a351a8d06833198cc6432190c86231188c06030180c05e2f178bc5c2e170b85c2d,
    0x7037dbcde6eb71b6da6cb61b0d76b355a8d369b49a2d067b399acd6632d94c9643218ec662b1186c26130580bf5f2f57abc5dae972b85c2dd6cb55a2cd66b258ac15eae572b558ab552a552a853a994aa45228d44a15027d3e9e4ea71369a4d26530974b2592a9449a4922914823d1c8d46a31168a44a21108743215088441a090280401fcfc7d3e1f0f67a3c9e0f0773b1d4ea74399c8e271381bcdc6d369b0d66a351a4d06733998ca643218cc46130980be5e2f174b85b2d968b2592c15cac562a950a85329148a2502793c9c4d26930964b2512892482411c8c46229148843219088441201007e3f1f0f87a3d1e0f0763b1d0e872391c0e06e371b8d86c351a8d468341a0cc6633190c86431188c46230180c06030178bc5e2f178b85c2e,
    0x7037dbcde6eb71b6da6cb65b0d76b355a8d369b49a2d067b399ccd6632d94c9643218ec662b1186c36130580bf5f2f97abc5dae972b95c2dd6cb55a2cd66b258ac15eae572b558ab552a552a853a994aa45228d44a1502813e9e4ea71369b4d26530974b2592a9449a4924914823d1c8d46a31168a44a251087432150a8441a090281401fcfc7d3e9f0f67a3c9e4f0773b1d4ea74399c8e471381bcdc6e369b0d66b351a4d06833998ca653218cc46230980be5f2f174b85c2d968b4592c15cae562a954a85329948a2502813c9c4e26930984b2592892492411c8e462311488442190c844120900803f1f8f87c3d1e8f0783b1d8e874391c8e070381b8dc6c361b0d46a341a0d06633198cc6432190c46231188c46030180c0602f178bc5e2f,
    0x7037dbede6eb71b6da6cb65b0d76b355a8d469b49a2d067b399ccd6632d94c964b218ec662b1188c36130580bf5f2f97abc5dae972b95c2dd6cb55a2d166b258ac15eaf572b558ab552a952a853a994aa55228d44a1502813e9e4ea71389b4d26530974ba592a9449a4d24914823d1c8e46a31168a452251087432190a8441a090481401fcfc7e3e9f0f67a3d1e4f0773b1d8ea74399cce471381bcde6e369b0d86b351a4d26833998cc653218cc66230980c05f2f174ba5c2d96cb4592c160ae562b154a85429948a2512813c9e4e26934984c259289449241208e47231148a442210c84422090480401f8fc7c3e1e8f4783c1d8ec743a1c8e470381c0dc6e361b0d86a351a8d06834198cc6633190c86432188c46231188c06030180c05e2f,
    0x70381bede6eb71b6da6d365b0d76b355a8d469b49a2d067b3d9ccd6632d94ca64b218ec662b1188c36130580bf5faf97abc5dae974b95c2dd6cb55aad166b258ac160af572b558ab55aa952a853a994ca55228d44a150a813e9e4ea75389b4d26530984ba592a944a24d24914823d1e8e46a31168b45225108743a190a8441a0d0481401fcfe7e3e9f0f67b3d1e4f0773b9d8ea743a1cce471381c0de6e369b4d86b351a8d2683399ccc6532190c66230984c05f2f178ba5c2e16cb4592c960ae572b154a85429948a451281409e4e27134984c2592c9449249208e47231188a452210c8642211048240200fc7c3e1e8f4783c1e0ec763a1d0e472381c0e06e371b0d86c351a8d468341a0d06633198cc6432190c86231188c46230180c06030,
    0x70381bede6eb71b6db6d365b0d76b355aad469b49a2d06833d9ccd6632d94ca64b218ec662b1588c36130580c05faf97abc5daed74b95c2dd6cb65aad166b258ac560af572b558ac55aa952a853a9d4ca55228d44a250a813e9e4ea75389b4d26532984ba592a944a24d2491482411e8e46a31188b45225108843a190a844220d048140200fe7e3e9f0f87b3d1e4f0783b9d8ea753a1cce471389c0de6e371b4d86b359a8d2683419ccc6532990c66231184c05f2f978ba5d2e16cb45a2c960b0572b154aa542994ca451289409e4f271349a4c2612c944a249209047239188a45221108643211088240200fc7e3e1f0f47a3c1e0f0763b1d0e872391c8e070371b8dc6c361b0d46a351a0d06834198cc6633190c86432190c46231188c46030] = true := by decide +kernel

theorem rows96 : rows 96 [0x70b81bede6eb71b6db6d365b0d76b359aad469b49a2d06833d9ccd6632d96ca64b218ec66331588c36130580c05faf97abc5daed74b95c2dd6cb65aad166b258ac560af572b558ac55aa952a85429d4ca55228d46a250a813e9e4f275389b4d26932984ba592a954a24d249148a411e8e46a35188b45225108843a190a844220d048140a00fe7e3e9f4f87b3d1e4f2783b9d8ec753a1cce472389c0de6f371b4d86c359a8d2693419ccc6632990c66331184c0602f978bc5d2e16cb65a2c964b0572b158aa542a14ca45228940a04f271389a4d2612c964a249249048239188c45229108843211088241201007e3f1f0f87a3d1e0f0783b1d8e874391c8e470381b8dc6e361b0d86a351a8d468341a0d06633198cc6632190c86432188c46231,
    0x70b81bede6eb71b8db6d365b0d76b359aad469b49a2d16833d9ccd6633196ca64b218ec66331588c36130582c05faf97abc5e2ed74b95c2dd6eb65aad166b2592c560af572b55aac55aa952a85429d4ca55229146a250a813e9f4f275389b4d26932984ba592c954a24d249248a411e8e46a35188b45225128843a190a854220d048140a00fe7e3f1f4f87b3d1e8f2783b9dcec753a1cce672389c0e06f371b4da6c359a8d4693419cce6632990c86331184c2602f97cbc5d2e170b65a2d164b0572b958aa552a14ca65228944a04f279389c4d26130964a2512492482391c8c4622914884321908844120900803f1f8f87c3d1e8f0783c1d8ec743a1c8e472381c0e06e371b8d86c361a8d46a351a0d068341a0cc6633198cc6432190c86431,
    0x70b81bede6eb71b8db6d365b0d76bb59aad469b49a4d16833d9ccd6633196ca64b218ec76331588c36130982c05faf97abd5e2ed74b95c2e16eb65aad166b3592c560af572b95aac55aa952a95429d4ca55229146a250a81409f4f275389b4da6932984ba5d2c954a24d269248a411e8e47235188b45229128843a190c854220d048240a00fe7f3f1f4f87b3d9e8f2783b9dcec753a1d0e672389c4e06f371b8da6c359acd469341a0ce6632994c86331188c2602f97cbc5d2e970b65b2d164b0582b958ac552a150a65229144a0502793c9c4d26930964b2512892482411c8e462291488442190c84422090480401f8fc7c3e1e8f4783c1e0ec763a1d0e872391c0e070371b8dc6e361b0d86a351a8d468341a0d06833198cc6633198c86432,
    0x70b81bede6eb75b8db6d365b0d86bb59aad469b49a4d16833d9ccd66b3196ca64b2190c76331588c361b0982c05faf97abd5e2ed74b95c2e16eb65aad168b3592c560af57ab95aac55aa954a95429d4ca552a9146a250a85409f4f275389c4da6932984c25d2c954a24d269248a411e8f47235188b45a29128843a1d0c854220d068240a01007f3f1f4f87c3d9e8f2783c1dcec753a9d0e672391c4e06f379b8da6c361acd469349a0ce6633194c86331988c2603017cbc5e2e970b85b2d164b2582b95cac552a950a65329144a2502793c9c4e26930984b259289249241208e46231148a442210c8642211048240200fc7e3e1f0f47a3c1e0f0763b1d0e874391c8e470381c0dc6e371b0d86c361a8d46a351a8d068341a0d06633198cc6633,
    0x70b81bede6f375b8db6d365b0d86bb59aad469b4da4d16833d9cce66b3196ca64b2190c76331588c361b0982c05faf97cbd5e2ed74b95cae16eb65aad168b3592c560af57ab95aac55aad54a95429d4ca652a9146a250a85409f4f2753a9c4da6932994c25d2c954a251269248a41208f47235188c45a2912884421d0c8542211068240a01007f3f1f4fa7c3d9e8f2793c1dcec763a9d0e673391c4e070379b8da6c361acd46a349a0ce6733194c86431988c2613017cbe5e2e974b85b2d168b2582c15cac562a950a85329148a2502813c9e4e26934984c259289449249208e47231188a45221108643211088241201007e3f1f0f87a3d1e8f0783b1d8ec743a1c8e472381c0e070371b8dc6c361b0d86c351a8d46a351a0d068341a0cc6633,
    0x70b81bede6f375b8db6d365b2d86bb59aad46a34da4d16833d9cce66b3196ca64b2590c76331588c461b0982c05fafd7cbd5e2ed74ba5cae16eb65aad568b3592c560b057ab95aac55aad54a95429d4ea652a9146a251285409f4f2793a9c4da6932994c25d2c954aa51269248a45208f472351a8c45a2912894421d0c8542a11068240a05007f3f1f8fa7c3d9e8f4793c1dcee763a9d0e873391c4e070379b8da6d361acd66a349a0d06733194ca6431988c46130180be5e2f174b85b2d968b2592c15cae562a954a85329948a251281409e4e27134984c2592c944a249209047239188c4522910864321108824120900803f1f8f87c3d1e8f4783c1d8ec763a1d0e872391c8e070381c0dc6e371b8d86c361b0d46a351a8d46a341a0d06834,
    0x70b81bedf6f375b8db6d369b2d86bb59aad46a34da4d16833d9ece66b3196ca6532590c7633158ac461b0982c0602fd7cbd5e2ed76ba5cae16eb65b2d568b3592c562b057ab95aac562ad54a9542a14ea652a9146a351285409f4fa793a9c4da6934994c25d2c964aa51269249245208f472391a8c45a2914894421d0c8642a11068241205007f3f9f8fa7c3d9ecf4793c1e0ee763a9d4e873391c4e270379b8dc6d361acd66a349a4d06733198ca643198cc46130980be5f2f174b85c2d968b4592c160ae562b154a85429948a451289409e4f271349a4c2612c944a2492490482391c8c452291088432190884412090480401f8fc7c3e1e8f47a3c1e0f0763b1d0e874391c8e472381c0e070371b8dc6e361b0d86c361a8d46a351a8d46834,
    0x70b81c0df6f375b8db6d369b2d86bb59aad56a34da4d1683419ece66b3196cb6532590c7633158ac461b0982c0602fd7cbd5e2ed76ba5cae16eb75b2d568b3592c962b057ab95aad562ad54a9542a14ea652a9148a351285409f4fa793a9c4da6d34994c25d2e964aa51269349245208f47a391a8c45a2d14894421d0e8642a1106834120500803f9f8fa7c3e1ecf4793c9e0ee763b1d4e873391c8e270379bcdc6d361b0d66a351a4d06733998ca643218cc46230980be5f2f174ba5c2d96cb4592c960ae572b154aa542994ca45228940a04f271389a4d2612c964a2512492482391c8c462291488442190c8442209048240200fc7e3e1f0f87a3d1e0f0783b1d8ec743a1d0e472391c8e070381c0dc6e371b8dc6c361b0d86c361a8d46a35] = true := by decide +kernel

theorem rows104 : rows 104 [0x70b81c0df6f375b8db6db69b2d86bb59acd56a34da4d1683419ece66b3196cb6532590c7633198ac461b0982c1602fd7cbd5e2f176ba5cae16eb75b2d568b359ac962b057ab95cad562ad54a954aa14ea652a9548a35128540a04fa793a9c4e26d34994c2612e964aa51289349245209047a391a8c4622d1489442210e8642a1108834120502803f9f8fa7d3e1ecf47a3c9e0ee773b1d4e873399c8e270381bcdc6d369b0d66b351a4d06833998ca653218cc66230980c05f2f178ba5c2e16cb45a2c960b0572b158aa542a14ca45228944a04f279389c4d26130964b2512892482411c8e46231148a442210c8642211048241201007e3f1f0f87c3d1e8f4783c1d8ec763b1d0e874391c8e472381c0e070371b8dc6e371b8d86c361b0d86c35,
    0x70b85c0df6f375b8dc6db69b2d86bb59acd56a34da4d168b419ece66b3198cb6532590c763b198ac461b0984c1602fd7cbd5eaf176ba5cae170b75b2d568b359ac962b057abd5cad562ad54aa54aa14ea65329548a35128542a04fa793a9d4e26d34994ca612e964aa55289349245209047a391a8d4622d148944a210e8642a1508834120902803f9f8fc7d3e1ecf67a3c9e0ee773b1d4e874399c8e271381bcdc6e369b0d86b351a4d26833998cc6532190c66230984c05f2f978ba5d2e16cb65a2c964b0572b958aa552a14ca65229144a0502793c9c4d26930984b259289249241208e47231188a4522110864321108824120900803f1f8f87c3e1e8f47a3c1e0f0763b1d8e8743a1d0e472391c8e070381c0e070371b8dc6e371b0d86c36,
    0x71385c0df6f375b8dc6db69b2d86bb5dacd56a34da4d268b419ece66b3598cb6532590c863b198ac461b0d84c1602fd7cbe5eaf176ba5cae570b75b2d568b459ac962b057abd5cad562ad56aa54aa14ea65329548a35128942a04fa793c9d4e26d34994ca612e964aa55289349245229047a391c8d4622d148a44a210e864321508834120902803f9fcfc7d3e1f0f67a3c9e0f0773b1d4ea74399c8e471381bcde6e369b4d86b351a8d2683399ccc6532990c66231184c0602f978bc5d2e170b65a2d164b0582b958ac552a150a65329144a2502813c9c4e26934984b259289449249209047239188c452291088432190884412090480401f8fc7e3e1f0f47a3d1e0f0783c1d8ec763a1d0e874391c8e472391c0e070381c0e06e371b8dc6e36,
    0x71385c0df6f375badc6db69b2d86c35dacd56a34da4d268b419ece66b3598cb6532590c863b198ac461b0d84c1602fd7cbe5eaf176ba5d2e570b75b2d56ab459ac962b0582bd5cad562b156aa54aa14ea75329548a351a8942a04fa7d3c9d4e26d349a4ca612e964b255289349249229047a391c8d4622d168a44a210e8743215088341a090280401fcfc7d3e9f0f67a3c9e4f0773b1d8ea74399cce471381c0de6e371b4d86b359a8d2683419ccc6632990c66331184c2602f97cbc5d2e970b65b2d164b2582b95cac552a950a85329148a2502813c9e4e27134984c2592c944a2492490482391c8c462291488442190c8442209048240200fc7e3f1f0f87c3d1e8f4783c1e0ec763b1d8e8743a1d0e872391c8e472381c0e070381c0dc6e37,
    0x71385c0df6f379badc6db69b2d86c35dacd56a34da6d268b419ece6733598cb6532592c863b198ac46230d84c1602fd7ebe5eaf176ba5d2e570b75b2d96ab459ac962b1582bd5cad56ab156aa54aa150a75329548a451a8942a04fa7d3c9d4e26d369a4ca612e974b255289349a49229047a3d1c8d46231168a44a21108743215088441a090281401fcfc7e3e9f0f67a3d1e4f0773b9d8ea743a1cce471389c0de6f371b4d86c359a8d2693419cce6632990c86331188c2603017cbc5e2e970b85b2d168b2582c15cac562a954a85329948a251281409e4f271349a4c2612c964a2512492482391c8c46231148a442210c864221108824120100803f1f8f87c3e1e8f47a3d1e0f0783b1d8ec763a1d0e8743a1c8e472391c8e470381c0e07038,
    0x71385c0df6f379badc6db69b2d96c35dacd56a351a6d268b419ecf6733598cb6532992c863b198ac56230d84c1603017ebe5eaf176bb5d2e570b75bad96ab459ac964b1582bd5cad56ab156aa54aa550a7532954aa451a8942a05027d3c9d4e271369a4ca6130974b255289449a4922904823d1c8d46231168a44a251087432150a8441a090481401fcfe7e3e9f0f67b3d1e4f0783b9d8ea753a1cce472389c0de6f371b4da6c359a8d469341a0ce6632994c86331988c2613017cbe5e2e974b85b2d968b2592c15cae562a954a85429948a451289409e4f271389a4d26130964a2512492482411c8e46231188a452211086432110884412090080401f8fc7e3e1f0f87a3d1e8f4783c1e0ec763b1d8ec743a1d0e8743a1c8e472391c8e47038,
    0x71385c0df6fb79badc6db69b4d96c35dacd56ab51a6d268b41a0cf6733598cb65b2992c863b198cc56230d84c160b017ebe5eaf178bb5d2e570b75bad96ab459acd64b1582bd5cae56ab156aa552a550a7532954aa451a8942a15027d3c9d4ea71369a4ca6530974b2552a9449a4922914823d1c8d46a31168a452251087432190a8441a0d0481401fcfe7e3e9f0f87b3d1e4f2783b9d8ec753a1cce672389c0e06f371b8da6c359acd469349a0ce6633194c86431988c46130180be5e2f174b85c2d968b4592c160ae562b154aa542994ca45228940a04f279389c4d26930964b251289249241208e47231188a45229108843219088442209048240200fc7e3f1f0f87c3e1e8f47a3c1e0f0783c1d8ec763b1d8e8743a1d0e874391c8e47239,
    0x71385c0e06fb79badc6db69b4d96c35dacd56ab51a6d268b41a0cf6733598cb65b2992c863b198cc56230d84c260b017ebe5eaf578bb5d2e570b85bad96ab45a2cd64b1582bd5eae56ab156ab552a550a7532994aa451a8944a15027d3c9e4ea71369a4d26530974b2592a9449a4924914823d1c8e46a31168b45225108743a190a844220d048140200fe7e3e9f4f87b3d1e8f2783b9dcec753a1d0e672389c4e06f379b8da6c361acd46a349a0ce6733194ca643198cc46130980be5f2f174ba5c2d96cb4592c960ae572b158aa542a14ca65228944a0502793c9c4d26930984b259289449249209047239188c452291488442190c864221104824120100803f1f8fc7c3e1f0f87a3d1e8f4783c1e0f0763b1d8ec763b1d0e8743a1d0e87239] = true := by decide +kernel

theorem rows112 : rows 112 [0x71385c0e06fb79badc6db6db4d96c35dacd66ab51a6d268b45a0cf6733598cc65b2992c863b1d8cc56230d84c260b017ebe5f2f578bb5d2e572b85bad96ab45a2cd64b1582c15eae56ab156ab552a550a753a994aa451a8d44a15027d3e9e4ea71369b4d26530974ba592a9449a4d24914823d1e8e46a31188b45225108843a190a854220d048140a00fe7e3f1f4f87b3d9e8f2783c1dcec753a9d0e672391c4e070379b8da6d361acd66a349a0d06733198ca643218cc46230980c05f2f178ba5c2e16cb45a2c960b0572b958aa552a150a65229144a2502813c9c4e26934984c2592c944a2492490482391c8c46231148a442210c8643211088441209008040200fc7e3f1f0f87c3e1e8f47a3d1e0f0783c1e0f0763b1d8ec763b1d0e8743a,
    0x71385c2e06fb79badc6e36db4d96c35daed66ab51a6d269345a0cf673359acc65b2992c86431d8cc56230d86c260b017ebe5f2f578bb5d2e972b85bad96ab55a2cd64b158ac15eae56ab158ab552a550a853a994aa45228d44a1502813e9e4ea71389b4d26530984ba592a944a24d2491482411e8e46a35188b45225128843a190c854220d048240a00fe7f3f1f4f87c3d9e8f2793c1dcec763a9d0e673391c4e270379b8dc6d361b0d66a349a4d06733998ca653218cc66230984c05f2f978ba5d2e16cb65a2c964b0582b958ac552a950a65329148a2502813c9e4e271349a4c2612c964a2512492482411c8e46231188a45221108843219088442209048240201007e3f1f8fc7c3e1f0f87a3d1e8f47a3c1e0f0783c1e0ec763b1d8ec763a,
    0x71389c2e06fb79badd6e36db4d96c35daed66ab51a6d269345a0cf673399acc65b2992c96431d8cc56231186c260b017ebf5f2f578bb5dae972b85bad96cb55a2cd64b158ac15eae56ab558ab552a552a853a994aa55228d44a150a813e9e4ea75389b4d26532984ba592a954a24d249148a411e8e46a35188b45229128843a1d0c854220d068240a01007f3f1f4fa7c3d9e8f4793c1dcee763a9d0e873391c8e270379bcdc6d369b0d66a351a4d06833998cc6532190c66231184c0602f978bc5d2e170b65a2d164b2582b95cac552a950a85329948a251281409e4f271389a4d26130964b251289249241208e47231188c452291088442190c86422110482412090080401f8fc7e3f1f0f87c3e1f0f47a3d1e8f4783c1e0f0783c1d8ec763b,
    0x71389c2e06fb79badd6e36db4d96c361aed66ab51a6d369345a0cf673399acc65b2992c96431d8cc562b1186c260b0180bf5f2f578bb5dae972b85badd6cb55a2cd64b258ac15eae572b558ab552a952a853a994aa55228d44a150a813e9e4ea75389b4d26932984ba592c954a24d249248a411e8e47235188b45a2912884421d0c8542211068240a05007f3f1f8fa7c3d9ecf4793c1e0ee763a9d4e873399c8e270381bcdc6e369b0d66b351a4d2683399ccc6532990c66231184c2602f97cbc5d2e970b65b2d164b2582c15cac562a954a85429948a45128940a04f279389c4d26930984b259289449249209047239188c462291488442210c8643211088441209048040201007e3f1f8fc7c3e1f0f87c3d1e8f47a3d1e8f4783c1e0f0783c,
    0x71b89c2e06fb79bcdd6e36db4d96cb61aed66ab51a8d369345a0cf67b399acc65b2994c96431d8cc562b1186c260b0580bf5f2f578bc5dae972b85c2dd6cb55a2cd66b258ac15eaf572b558ab55aa952a853a994ca55228d44a250a813e9e4f275389b4d26932984ba5d2c954a24d269248a411e8f47235188c45a2912884421d0c8542a11068241205007f3f9f8fa7c3e1ecf4793c9e0ee763b1d4e874399c8e271381bcde6e369b0d86b351a8d2683419ccc6532990c66331184c2603017cbc5e2e970b85b2d168b2592c15cae562b154a8542994ca45228944a050279389c4d26930984b25928944a2492490482391c8e46231148a452211088432190884422110482412010080401f8fc7e3f1f8f87c3e1f0f87c3d1e8f47a3d1e8f0783c,
    0x71b89c2e06fb7dbcdd6e36db4da6cb61aed66ab55a8d369345a0d067b399acc65b2d94c96431d8cc662b1186c26130580bf5f2f57abc5dae972b85c2dd6cb55a2d166b258ac160af572b558ab55aa952a853a9d4ca55228d46a250a813e9f4f275389b4da6932984c25d2c954a251269248a41208f472351a8c45a2912894421d0c8642a1106834120500803f9f8fa7d3e1ecf47a3c9e0ee773b1d4ea74399c8e471381c0de6e369b4d86b359a8d2693419ccc6632990c86331188c2613017cbe5e2e974b85b2d968b4592c160ae572b154aa542a14ca65229144a0502793c9c4e26934984c2592c944a2512492482411c8e47231188a452291088442190c864221108824120904804020100803f1f8fc7e3f1f0f87c3e1f0f87a3d1e8f47a3d,
    0x71b89c2e06fb7dbcdd6e36db4da6cb61aed66ab55a8d369345a2d067b399acc6632d94c96431d8ec662b1186c26130580bf5f2f97abc5dae972b95c2dd6cb55aad166b258ac560af572b558ac55aa952a85429d4ca55229146a250a81409f4f275389c4da6932984c25d2c954aa51269248a45208f472391a8c45a2914894421d0e8642a1108834120502803f9f8fc7d3e1ecf67a3c9e0f0773b1d8ea74399cce471381c0de6e371b4d86c359a8d4693419cce6632994c86331988c26130180be5e2f174b85c2d96cb4592c960b0572b158aa552a150a65229144a2502813c9e4e271349a4c2612c964a251289249241208e47239188c46229148a44221108643219088442209048241209008040200fc7e3f1f8fc7e3f1f0f87c3e1f0f87a3d,
    0x71b89c2e07037dbcdd6e36db6da6cb61aed66b355a8d369345a2d067b399acd6632d94c9643218ec662b1186c36130580bf5faf97abc5dae974b95c2dd6cb65aad166b258ac560af572b55aac55aa952a95429d4ca552a9146a250a85409f4f2753a9c4da6932994c25d2c964aa51269249245208f47a391a8c45a2d1489442210e8642a1508834120902803f9fcfc7d3e1f0f67a3c9e4f0773b9d8ea743a1cce471389c0de6f371b4da6c359acd469341a0ce6633194c86431988c46130980be5f2f174ba5c2e16cb45a2c964b0572b958ac552a950a65329148a251281409e4f271389a4d26130964b2512894492492090482391c8c46231148a452211088432190c8642211088441209048240201008040200fc7e3f1f8fc7e3e1f0f87c3e] = true := by decide +kernel

theorem rows120 : rows 120 [0x71b89c2e17037dbcdd6e371b6da6cb61aed76b355a8d369349a2d067b399acd6632d94c964b218ec662b1188c36130580bf5faf97abc5daed74b95c2dd6eb65aad166b2592c560af572b95aac55aa954a95429d4ca652a9146a251285409f4f2793a9c4da6934994c25d2e964aa51269349245209047a391a8c4622d148944a210e8643215088341a090280401fcfc7d3e9f0f67a3d1e4f0773b9d8ea753a1cce472389c0e06f371b8da6c359acd469349a0ce6733194ca643198cc46230980c05f2f178ba5d2e16cb65a2d164b0582b95cac552a950a85329948a45128940a04f279389c4d26930984b2592c944a2492490482411c8e47231188c452291488442210c86432190884422110482412090480402010080401f8fc7e3f1f8fc7e3e,
    0x71b89c4e17037dbcdd6eb71b6da6cb61b0d76b355a8d369b49a2d067b399ccd6632d94c964b218ec662b1588c36130580c05faf97abc5e2ed74b95c2dd6eb65aad166b3592c560af57ab95aac55aad54a95429d4ea652a9146a351285409f4fa793a9c4da6d34994c2612e964aa51289349245229047a391a8d4622d148a44a210e8743215088441a090281401fcfc7e3e9f0f67b3d1e4f0783b9d8ec753a1cce672389c4e06f379b8da6c361acd46a349a0d06733198ca643218cc66230984c05f2f978ba5d2e170b65a2d164b2582c15cac562a954a8542994ca45228944a0502793c9c4e26934984c2592c964a251249249241208e47239188c46229148a442211088432190c86422110884412090482412090080402010080401f8fc7e3f,
    0x71b89c4e17037dbcdd6eb71b6da6cb61b0d76b355a8d469b49a2d067b3d9ccd6632d94ca64b218ec66331588c36130582c05faf97abd5e2ed74b95c2e16eb65aad168b3592c560b057ab95aac562ad54a9542a14ea652a9148a35128540a04fa793a9c4e26d34994ca612e964aa55289349249229047a391c8d4622d168a44a211087432150a8441a090481401fcfe7e3e9f0f87b3d1e4f2783b9dcec753a1d0e672391c4e070379b8da6d361acd66a349a4d06733998ca653218cc66231184c0602f978bc5d2e970b65b2d168b2592c15cae562b154aa542a14ca65229144a2502813c9e4e271349a4c2612c964b2512892492492090482391c8e46231188a452291088442210c8643219088442211088241209048241209008040201008040,
    0x71b8dc4e17037dbcde6eb71b6da6cb65b0d76b355a8d469b49a2d06833d9ccd6632d96ca64b218ec66331588c36130982c05faf97abd5e2ed74b95cae16eb65aad568b3592c562b057ab95aad562ad54a954aa14ea652a9548a35128542a04fa793a9d4e26d34994ca612e964b255289349249229047a3d1c8d46231168a44a251087432190a8441a0d048140200fe7e3e9f4f87b3d1e8f2783c1dcec753a9d0e673391c4e270379b8dc6d361b0d66a351a4d06833998cc6532190c66331184c2602f97cbc5e2e970b85b2d968b2592c160ae572b158aa552a14ca65229144a2502813c9e4f271389a4d26130964b2592894492492490482411c8e47231188c45229148a442211088432190c8643211088442211088241209048241209008040,
    0x7238dc4e17037dbede6eb71b6da6d365b0d76b355aad469b49a2d06833d9ccd6633196ca64b218ec76331588c361b0982c05faf97cbd5e2ed74ba5cae16eb65b2d568b3592c962b057ab95aad562ad54a954aa14ea65329548a35128942a04fa793c9d4e26d349a4ca612e974b255289349a4922904823d1c8d46a31168a45225108743a190a844220d048140a00fe7e3f1f4f87b3d9e8f2793c1dcec763a9d0e873391c8e270379bcdc6d369b0d66b351a4d2683399ccc6532990c86331188c2603017cbe5e2e974b85c2d968b4592c960b0572b958aa552a150a65329148a251281409e4f279389c4d26930984c2592c944a2512492492412090472391c8c46231148a452291088442211086432190c8642211088442211088241209048241,
    0x7238dc4e170381bede6eb71b6db6d365b0d76b359aad469b49a2d16833d9ccd66b3196ca64b2190c76331588c461b0982c05fafd7cbd5e2ed76ba5cae16eb75b2d568b3592c962b057ab95cad562ad54aa54aa14ea65329548a351a8942a04fa7d3c9d4e26d369a4ca6130974b255289449a4922914823d1c8e46a31168b45225108843a190a854220d048240a00fe7f3f1f4f87c3d9e8f4793c1dcee763a9d4e873399c8e270381bcdc6e369b0d86b351a8d2683419ccc6632994c86331988c26130180be5e2f174ba5c2d96cb45a2c964b0572b958ac552a950a85329948a45128940a04f2793c9c4e26934984c2612c964a2512892492492090482391c8e46231188c45229148a442211088442190c86432190c8642211088442211088241,
    0x7238dc4e170381bede6eb71b8db6d365b0d76bb59aad469b49a4d16833d9ccd66b3196ca64b2590c76331588c461b0982c0602fd7cbd5e2f176ba5cae16eb75b2d568b359ac962b057abd5cad562ad56aa54aa14ea75329548a451a8942a05027d3c9d4e271369a4ca6530974b2552a9449a4924914823d1e8e46a31188b45225128843a190c854220d068240a01007f3f1f4fa7c3d9ecf4793c1e0ee763b1d4e874399c8e271381bcde6e369b4d86b359a8d2693419cce6633194c86431988c46130980be5f2f178ba5c2e16cb65a2d164b0582b95cac562a954a8542994ca45228944a0502793c9e4e271349a4d26130964b25928944a249249248241208e47239188c46231148a452291488442211088442190c86432190c8642211088442,
    0x7238dc4e170b81bede6eb71b8db6d365b0d86bb59aad469b4da4d16833d9cce66b3196ca6532590c7633158ac461b0982c1602fd7cbd5eaf176ba5cae170b75b2d568b459ac962b0582bd5cad562b156aa54aa150a75329548a451a8942a15027d3c9d4ea71369a4d26530974b2592a9449a4d2491482411e8e46a35188b45229128843a1d0c8542211068240a05007f3f1f8fa7c3e1ecf4793c9e0ee773b1d4e874399c8e471381c0de6e371b4d86c359a8d469341a0ce6633194ca643198cc46230980c05f2f978ba5d2e170b65b2d164b2582c15cae562b154aa542a14ca65229144a2502813c9e4f271389a4d26930984b2592c944a2512492492412090482391c8e46231188c46229148a452291088442211088432190c86432190c8642] = true := by decide +kernel

end Mcu.Lemmas.Opp
